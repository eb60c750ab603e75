import Verif.Lemmas.GraphTree
import Verif.Model.GraphCopy
import Verif.Spec.ObjectLook
/-!
# Copying objects within a file
-/
namespace Verif.Graph
open Verif.Spec.Objects

variable {w : World} {G : Oid → GO} {pl : Places} {own : Owners}

/-- The graph as the specification sees it. -/
def absG (G : Oid → GO) : Oid → Thing := fun o => (G o).abs

def Ok (w : World) (G : Oid → GO) : Prop := ∃ pl own, Inv w G pl own no no no

def LooseG (G : Oid → GO) (c : Oid) : Prop := ∀ x nm, ¬ Edge (G x) nm c

def Alive (w : World) (o : Oid) : Prop := ∃ ob, w.heap o = some ob

theorem Ok.bound {w : World} {G : Oid → GO} (k : Ok w G) {x c : Oid} {nm : Nm} (h : Edge (G x) nm c) : x < w.next ∧ c < w.next := by
  obtain ⟨pl, own, I⟩ := k
  exact I.bound _ _ _ ((I.edge _ _ _).1 h)

theorem Ok.lt {w : World} {G : Oid → GO} (k : Ok w G) {o : Oid} (h : Alive w o) : o < w.next := by
  obtain ⟨pl, own, I⟩ := k
  obtain ⟨ob, h⟩ := h
  exact I.lt _ _ h

/-! ## Looks -/

theorem map_congr' {α β : Type} {f g : α → β} : ∀ {l : List α}, (∀ a ∈ l, f a = g a) → l.map f = l.map g
  | [], _ => rfl
  | a :: l, h => by
    rw [List.map_cons, List.map_cons, h a (by simp), map_congr' fun b hb => h b (by simp [hb])]

theorem lookVal_congr {f g : Oid → Look} {v : Val} (h : ∀ c ∈ v.refs, f c = g c) : lookVal f v = lookVal g v := by
  cases v with
  | data b => rfl
  | one c => simp [lookVal, h c (by simp [Val.refs])]
  | list l => simp only [lookVal]; rw [map_congr' (l := l) h]
  | dict d =>
    simp only [lookVal]
    rw [map_congr' fun e he => by rw [h e.2 (List.mem_map.2 ⟨e, he, rfl⟩)]]

theorem edge_of_abs {G : Oid → GO} {x c : Oid} {p : Pid} {v : Val} (h : (absG G x).val p = some v) (hc : c ∈ v.refs) : ∃ nm, Edge (G x) nm c := by
  simp only [absG, GO.abs, Option.map_eq_some_iff] at h
  obtain ⟨gp, h1, rfl⟩ := h
  rw [refs_absP] at hc
  obtain ⟨nm, h2⟩ := (mem_kidsP p).1 hc
  exact ⟨nm, p, gp, h1, h2⟩

/-- A part of the graph that has not changed looks the same. -/
theorem look_congr {tr : Nat → Pid → Pid} {G G' : Oid → GO} {A : Oid → Prop} (h : ∀ x, A x → G' x = G x) (hA : ∀ x nm c, A x → Edge (G x) nm c → A c) :
    ∀ n o, A o → lookBy tr (absG G') n o = lookBy tr (absG G) n o := by
  intro n
  induction n with
  | zero => intro o _; rfl
  | succ n ih =>
    intro o ho
    have e : absG G' o = absG G o := by simp only [absG, h o ho]
    simp only [lookBy, e]
    congr 1
    refine map_congr' fun p _ => ?_
    cases hv : (absG G o).val p with
    | none => rfl
    | some v =>
      simp only [Option.map_some]
      rw [lookVal_congr fun c hc => ?_]
      obtain ⟨nm, he⟩ := edge_of_abs hv hc
      exact ih c (hA o nm c ho he)

def SameLook (G' : Oid → GO) (c : Oid) (G : Oid → GO) (o : Oid) : Prop := ∀ n, look (absG G') n c = look (absG G) n o

def SameP (G' : Oid → GO) (gp' : GP) (G : Oid → GO) (gp : GP) : Prop :=
  ∀ n, lookVal (look (absG G') n) (absP gp') = lookVal (look (absG G) n) (absP gp)

/-! ## Heights -/

/-- The local keys of the vectors are below their lengths. -/
def CompactP : GP → Prop
  | .vec xs _ => ∀ e ∈ xs, e.1 < xs.length
  | _ => True

def CompactG (g : GO) : Prop := ∀ pid gp, g.prp pid = some gp → CompactP gp

/-- `o` has no more than `h` levels, all of them compact. -/
inductive Fine (G : Oid → GO) : Oid → Nat → Prop
  | mk {o : Oid} {h : Nat} : (∀ nm c, Edge (G o) nm c → Fine G c h) → CompactG (G o) → Fine G o (h + 1)

theorem Fine.congr {G G' : Oid → GO} {A : Oid → Prop} (hs : ∀ x, A x → G' x = G x) (hA : ∀ x nm c, A x → Edge (G x) nm c → A c) {o : Oid} {h : Nat} (f : Fine G o h) :
    A o → Fine G' o h := by
  induction f with
  | @mk o h _ hc ih =>
    intro ho
    refine .mk (fun nm c he => ?_) (by rw [hs o ho]; exact hc)
    rw [hs o ho] at he
    exact ih nm c he (hA o nm c ho he)

theorem Inv.fine {X Y Z : Oid → Prop} (I : Inv w G pl own X Y Z) : ∀ (k : Nat) {o : Oid} {d : Nat}, Depth own o d → o < w.next → w.next ≤ k + d →
    (∀ x, Below own o x → CompactG (G x)) → Fine G o k := by
  intro k
  induction k with
  | zero =>
    intro o d hd ho hk _
    have := hd.lt I.bound ho
    omega
  | succ k ih =>
    intro o d hd ho hk hc
    refine .mk (fun nm c he => ?_) (hc o .refl)
    have hown := (I.edge _ _ _).1 he
    exact ih (.step hown hd) (I.bound _ _ _ hown).2 (by omega) fun x hx => hc x ((Below.step hown .refl).trans hx)

/-! ## Growing -/

/-- There are more objects, and those below `N` are as they were. -/
structure Grew (N : Nat) (w w' : World) (G G' : Oid → GO) : Prop where
  disk : w'.disk = w.disk
  dirs : w'.dirs = w.dirs
  ro : w'.ro = w.ro
  held : w'.held = w.held
  modified : w'.modified = w.modified
  cls : w'.cls = w.cls
  next : w.next ≤ w'.next
  heap : ∀ o, Alive w o → Alive w' o
  same : ∀ x, x < N → G' x = G x
  apart : ∀ x nm c, N ≤ x → Edge (G' x) nm c → N ≤ c

theorem Grew.trans {N : Nat} {a b c : World} {Ga Gb Gc : Oid → GO} (h : Grew N a b Ga Gb) (h' : Grew N b c Gb Gc) : Grew N a c Ga Gc where
  disk := h'.disk.trans h.disk
  dirs := h'.dirs.trans h.dirs
  ro := h'.ro.trans h.ro
  held := h'.held.trans h.held
  modified := h'.modified.trans h.modified
  cls := h'.cls.trans h.cls
  next := Nat.le_trans h.next h'.next
  heap := fun o ho => h'.heap o (h.heap o ho)
  same := fun x hx => (h'.same x hx).trans (h.same x hx)
  apart := h'.apart

theorem Grew.weaken {N M : Nat} {w w' : World} {G G' : Oid → GO} (h : Grew M w w' G G') (hN : N ≤ M) (ha : ∀ x nm c, N ≤ x → Edge (G x) nm c → N ≤ c) : Grew N w w' G G' where
  disk := h.disk
  dirs := h.dirs
  ro := h.ro
  held := h.held
  modified := h.modified
  cls := h.cls
  next := h.next
  heap := h.heap
  same := fun x hx => h.same x (by omega)
  apart := fun x nm c hx he => by
    by_cases hm : x < M
    · rw [h.same x hm] at he; exact ha x nm c hx he
    · have := h.apart x nm c (by omega) he; omega

theorem Ok.apart {w : World} {G : Oid → GO} (k : Ok w G) : ∀ x nm c, w.next ≤ x → Edge (G x) nm c → w.next ≤ c := by
  intro x nm c hx he
  exact absurd hx (Nat.not_le.2 (k.bound he).1)

theorem Ext.grew {N : Nat} {w w' : World} (e : Ext w w') (ha : ∀ x nm c, N ≤ x → Edge (G x) nm c → N ≤ c) : Grew N w w' G G where
  disk := e.disk
  dirs := e.dirs
  ro := e.ro
  held := e.held
  modified := e.modified
  cls := e.cls
  next := by rw [e.next]; exact Nat.le_refl _
  heap := e.calm.heap
  same := fun _ _ => rfl
  apart := ha

/-- What was loose stays so. -/
theorem Grew.loose {w w' : World} {G G' : Oid → GO} {M : Nat} (g : Grew M w w' G G') {c : Oid} (hc : c < M) (h : LooseG G c) : LooseG G' c := by
  intro x nm he
  by_cases hx : x < M
  · rw [g.same x hx] at he; exact h x nm he
  · exact absurd hc (Nat.not_lt.2 (g.apart x nm c (Nat.le_of_not_lt hx) he))

/-- What was there looks the same. -/
theorem Grew.look {tr : Nat → Pid → Pid} {w w' : World} {G G' : Oid → GO} (k : Ok w G) (g : Grew w.next w w' G G') {o : Oid} (ho : o < w.next) (n : Nat) :
    lookBy tr (absG G') n o = lookBy tr (absG G) n o :=
  look_congr (A := fun x => x < w.next) g.same (fun _ _ _ _ he => (k.bound he).2) n o ho

/-! ## A property of a new object -/

theorem Ok.loose_own {I : Inv w G pl own no no no} {c : Oid} (h : LooseG G c) : own c = none := by
  cases hc : own c with
  | none => rfl
  | some q => exact absurd ((I.edge q.1 q.2 c).2 hc) (h q.1 q.2)

theorem link_ok (k : Ok w G) {n : Oid} {nb : Obj} (hn : w.heap n = some nb) (hl : LooseG G n) (h0 : n ≠ 0) {pid : Pid} {p : Prp} {gp : GP} (hg : (G n).prp pid = none)
    (hm : MatchP p gp) (hk : KeysOk gp) (hkn : (kidsP gp).Nodup) (hc : ∀ c ∈ kidsP gp, CachedP c p ∧ Alive w c ∧ LooseG G c ∧ c ≠ 0 ∧ c ≠ n)
    (hcc : ∀ c, CachedP c p → c ∈ kidsP gp) :
    add n pid p w = (.ok (), w.put n (nb.put pid p)) ∧ Ok (w.put n (nb.put pid p)) (upd G n ((G n).put pid gp)) := by
  refine ⟨add_ok hn pid p, ?_⟩
  obtain ⟨pl, own, I⟩ := k
  have loose : ∀ c, LooseG G c → own c = none := fun c h => Ok.loose_own (I := I) h
  have hpl : ∀ c, LooseG G c → c ≠ 0 → pl c = none := by
    intro c h h0
    cases hp : pl c with
    | none => rfl
    | some q =>
      rcases I.up c q hp with h1 | h1 | ⟨_, _, _, h1, _⟩
      · exact absurd h1 h0
      · exact h1.elim
      · rw [loose c h] at h1; cases h1
  have hb : ∀ c, c ≠ n → ¬ Below own c n := by
    intro c hne hb
    cases hb with
    | refl => exact hne rfl
    | step e _ => rw [loose n hl] at e; cases e
  obtain ⟨I1, W⟩ := I.change hn (pid := pid) (p := p) (gp := gp) hm hk hkn
    (fun nm c he => by
      obtain ⟨h1, h2, h3, h4, h5⟩ := hc c ((mem_kidsP pid).2 ⟨nm, he⟩)
      obtain ⟨cb, hcb⟩ := h2
      exact .inr ⟨loose c h3, h4, I.lt _ _ hcb, hb c h5, hpl c h3 h4, h1⟩)
    (fun c h => (hc c (hcc c h)).2.1)
    (fun nm c he ho _ => by
      obtain ⟨_, _, h3, _⟩ := hc c ((mem_kidsP pid).2 ⟨nm, he⟩)
      rw [loose c h3] at ho; cases ho)
    (fun _ h => h.elim)
  have I2 := (I1.shrinkX (X' := no) (fun _ h => h.elim) (by
    rintro x ⟨⟨nm, he⟩, h1⟩ _ u nm' hu hpu
    have hu' := (I1.edge _ _ _).2 hu
    have : u = n := by
      by_cases e : u = n
      · exact e
      · rw [upd_other _ _ e] at hu'
        rcases h1 with h1 | h1
        · exact h1.elim
        · rw [(I.edge _ _ _).1 hu'] at h1; cases h1
    subst this
    exact absurd (hpl u hl h0) hpu)).shrinkY (Y' := no) (by
    rintro x ⟨_, ⟨nm, h1, h2⟩, _⟩ _
    obtain ⟨q, gq, h3, h4⟩ := (I.edge _ _ _).2 h2
    have := h4.name
    rw [h1] at this; subst this
    rw [hg] at h3; cases h3)
  refine ⟨pl, _, I2.toStruct, ⟨I2.lt, I2.dir, I2.mat, I2.live, I2.full, I2.xc, I2.man, I2.disk, ?_, I2.mod, I2.dirs, I2.cls⟩⟩
  intro o q ob hq ho
  rcases I2.clean o q ob hq ho with (h1 | h1) | h1
  · exact h1.elim
  · subst h1; rw [hpl o hl h0] at hq; cases hq
  · exact .inr h1

/-! ## Copies one after the other -/

structure Copied (w : World) (G : Oid → GO) (w' : World) (G' : Oid → GO) (c o : Oid) : Prop where
  ok : Ok w' G'
  grew : Grew w.next w w' G G'
  new : w.next ≤ c
  alive : Alive w' c
  loose : LooseG G' c
  look : SameLook G' c G o
  filed : Filed (absG G) → Filed (absG G')

theorem gather_spec {α : Type} {f : α → M Oid} {r : α → Oid} : ∀ (l : List α) {w : World} {G : Oid → GO}, Ok w G → (∀ a ∈ l, r a < w.next) →
    (∀ a ∈ l, ∀ w' G', Ok w' G' → Grew w.next w w' G G' → ∃ c w'' G'', f a w' = (.ok c, w'') ∧ Copied w' G' w'' G'' c (r a)) →
    ∃ cs w' G', gather l f w = (.ok cs, w') ∧ Ok w' G' ∧ Grew w.next w w' G G' ∧ (Filed (absG G) → Filed (absG G')) ∧ cs.length = l.length ∧ cs.Nodup ∧
      (∀ c ∈ cs, w.next ≤ c ∧ Alive w' c ∧ LooseG G' c) ∧ ∀ n, cs.map (look (absG G') n) = l.map fun a => look (absG G) n (r a) := by
  intro l
  induction l with
  | nil => intro w G k _ _; exact ⟨[], w, G, rfl, k, (Ext.refl w).grew k.apart, id, rfl, by simp, by simp, fun _ => rfl⟩
  | cons a l ih =>
    intro w G k hr hf
    obtain ⟨c, w1, G1, h1, C⟩ := hf a (by simp) w G k ((Ext.refl w).grew k.apart)
    obtain ⟨cs, w2, G2, h2, k2, g2, hf2, h3, h4, h5, h6⟩ := ih C.ok (fun b hb => Nat.lt_of_lt_of_le (hr b (by simp [hb])) C.grew.next) fun b hb w' G' k' g' =>
      hf b (by simp [hb]) w' G' k' (C.grew.trans (g'.weaken C.grew.next C.grew.apart))
    have hc := C.ok.lt C.alive
    refine ⟨c :: cs, w2, G2, ?_, k2, C.grew.trans (g2.weaken C.grew.next C.grew.apart), fun h => hf2 (C.filed h), by simp [h3], ?_, ?_, ?_⟩
    · simp only [gather]; rw [bind_ok h1, bind_ok h2]; rfl
    · exact List.nodup_cons.2 ⟨fun hm => Nat.not_le.2 hc (h5 c hm).1, h4⟩
    · intro d hd
      rcases List.mem_cons.1 hd with rfl | hd
      · exact ⟨C.new, g2.heap _ C.alive, g2.loose hc C.loose⟩
      · obtain ⟨e1, e2, e3⟩ := h5 d hd; exact ⟨Nat.le_trans C.grew.next e1, e2, e3⟩
    · intro n
      rw [List.map_cons, List.map_cons, h6 n, show look (absG G2) n c = look (absG G1) n c from g2.look C.ok hc n, C.look n]
      congr 1
      exact map_congr' fun b hb => C.grew.look k (hr b (by simp [hb])) n

/-! ## One property after the other -/

/-- The properties in `done` have been copied into `n`. -/
structure Partial (w : World) (G : Oid → GO) (o n : Oid) (done : List Pid) (w' : World) (G' : Oid → GO) : Prop where
  ok : Ok w' G'
  grew : Grew w.next w w' G G'
  alive : Alive w' n
  loose : LooseG G' n
  key : (G' n).key = (G o).key
  cls : (G' n).cls = (G o).cls
  pids : (G' n).pids = done
  absent : ∀ pid, pid ∉ done → (G' n).prp pid = none
  present : ∀ pid gp, pid ∈ done → (G o).prp pid = some gp → ∃ gp', (G' n).prp pid = some gp' ∧ SameP G' gp' G gp
  filed : Filed (absG G) → Filed (absG G')

/-- The members of a copied set have the keys of the original ones. -/
theorem SameP.filed {G G' : Oid → GO} {gp gp' : GP} (h : SameP G' gp' G gp) {d : List (Key × Oid)} {k : Key} {c : Oid} (hd : absP gp' = .dict d) (hc : (k, c) ∈ d) :
    ∃ d0 c0, absP gp = .dict d0 ∧ (k, c0) ∈ d0 ∧ (absG G' c).key = (absG G c0).key := by
  have h1 := h 1
  rw [hd] at h1
  cases hg : absP gp with
  | dict d0 =>
    rw [hg] at h1
    simp only [lookVal, LookVal.dict.injEq] at h1
    have : (k, look (absG G') 1 c) ∈ d.map fun e => (e.1, look (absG G') 1 e.2) := List.mem_map.2 ⟨(k, c), hc, rfl⟩
    rw [h1] at this
    obtain ⟨⟨k0, c0⟩, h2, h3⟩ := List.mem_map.1 this
    simp only [Prod.mk.injEq, look, lookBy, Look.obj.injEq] at h3
    exact ⟨d0, c0, rfl, h3.1 ▸ h2, h3.2.1.symm⟩
  | _ => rw [hg] at h1; simp [lookVal] at h1

theorem Partial.link {w w' w2 : World} {G G' G2 : Oid → GO} {o n : Oid} {done : List Pid} (P : Partial w G o n done w' G') (k : Ok w G) (hN : w.next ≤ n) (k2 : Ok w2 G2)
    (g2 : Grew w'.next w' w2 G' G2) (hf2 : Filed (absG G') → Filed (absG G2)) {pid : Pid} (hd : pid ∉ done) {gp gp' : GP} {p : Prp} (hg : (G o).prp pid = some gp) (hm : MatchP p gp') (hk : KeysOk gp') (hkn : (kidsP gp').Nodup)
    (hc : ∀ c ∈ kidsP gp', CachedP c p ∧ w'.next ≤ c ∧ Alive w2 c ∧ LooseG G2 c) (hcc : ∀ c, CachedP c p → c ∈ kidsP gp') (hs : SameP G2 gp' G gp) :
    ∃ w3 G3, add n pid p w2 = (.ok (), w3) ∧ Partial w G o n (done ++ [pid]) w3 G3 := by
  have hn := P.ok.lt P.alive
  have hl2 := g2.loose hn P.loose
  have e2 := g2.same n hn
  have kid : ∀ c ∈ kidsP gp', c ≠ n := fun c h e => Nat.not_le.2 hn (e ▸ (hc c h).2.1)
  obtain ⟨nb, hnb⟩ := g2.heap n P.alive
  have hpos : 0 < w.next := by
    obtain ⟨pl, own, I⟩ := k
    exact I.plb 0 _ I.rootpl
  have h0 : n ≠ 0 := fun e => by rw [e] at hN; exact absurd hN (Nat.not_le.2 hpos)
  obtain ⟨h1, h2⟩ := link_ok k2 hnb hl2 h0 (pid := pid) (p := p) (gp := gp') (by rw [e2]; exact P.absent pid hd) hm hk hkn (fun c h => by
    obtain ⟨a1, a2, a3, a4⟩ := hc c h
    exact ⟨a1, a3, a4, fun e => by rw [e] at a2; exact absurd (Nat.le_trans P.grew.next a2) (Nat.not_le.2 hpos), kid c h⟩) hcc
  have g := P.grew.trans (g2.weaken P.grew.next P.grew.apart)
  -- the new state of the graph
  have s3 : ∀ x, x ≠ n → (upd G2 n ((G2 n).put pid gp')) x = G2 x := fun x hx => upd_other _ _ hx
  have l3 : LooseG (upd G2 n ((G2 n).put pid gp')) n := by
    intro x nm he
    by_cases e : x = n
    · subst e
      rw [upd_same] at he
      rcases edge_put.1 he with h | ⟨_, h⟩
      · exact kid _ ((mem_kidsP pid).2 ⟨nm, h⟩) rfl
      · exact hl2 _ _ h
    · rw [s3 x e] at he; exact hl2 _ _ he
  refine ⟨_, _, h1, h2, ⟨g.disk, g.dirs, g.ro, g.held, g.modified, g.cls, g.next, fun x hx => (put_calm _).heap x (g.heap x hx), ?_, ?_⟩, ⟨nb.put pid p, by simp [World.put]⟩, l3, ?_, ?_, ?_, ?_, ?_, ?_⟩
  · intro x hx
    rw [s3 x fun e => by rw [e] at hx; exact Nat.not_le.2 hx hN]
    exact g.same x hx
  · intro x nm c hx he
    by_cases e : x = n
    · subst e
      rw [upd_same] at he
      rcases edge_put.1 he with h | ⟨_, h⟩
      · exact Nat.le_trans P.grew.next (hc c ((mem_kidsP pid).2 ⟨nm, h⟩)).2.1
      · exact g.apart _ _ _ hx h
    · rw [s3 x e] at he; exact g.apart _ _ _ hx he
  · rw [upd_same]; simp only [GO.put, e2]; exact P.key
  · rw [upd_same]; simp only [GO.put, e2]; exact P.cls
  · rw [upd_same]; simp only [GO.put, e2, P.absent pid hd, Option.isSome_none, Bool.false_eq_true, if_false, P.pids]
  · intro q hq
    simp only [List.mem_append, List.mem_singleton, not_or] at hq
    rw [upd_same]; simp only [GO.put, upd_other _ _ hq.2, e2]; exact P.absent q hq.1
  · intro q gq hq hgq
    rw [upd_same]
    by_cases e : q = pid
    · subst e
      rw [hg] at hgq; cases hgq
      refine ⟨gp', by simp [GO.put], fun m => ?_⟩
      rw [← hs m]
      refine lookVal_congr fun c hc' => ?_
      rw [refs_absP] at hc'
      exact look_congr (A := fun x => x ≠ n) s3 (fun x nm c _ he e => hl2 x nm (e ▸ he)) m c (kid c hc')
    · simp only [List.mem_append, List.mem_singleton, e, or_false] at hq
      obtain ⟨gq', a1, a2⟩ := P.present q gq hq hgq
      refine ⟨gq', by simp only [GO.put, upd_other _ _ e, e2]; exact a1, fun m => ?_⟩
      rw [← a2 m]
      refine lookVal_congr fun c hc' => ?_
      rw [refs_absP] at hc'
      obtain ⟨nm, hnm⟩ := (mem_kidsP q).1 hc'
      have he : Edge (G' n) nm c := ⟨q, gq', a1, hnm⟩
      refine look_congr (A := fun x => x < w'.next ∧ x ≠ n) (fun x hx => (s3 x hx.2).trans (g2.same x hx.1)) (fun x nm c _ he => ⟨(P.ok.bound he).2, fun e => P.loose x nm (e ▸ he)⟩) m c
        ⟨(P.ok.bound he).2, fun e => P.loose n nm (e ▸ he)⟩
  · intro hf x q d key c hx hc
    have hF := hf2 (P.filed hf)
    have hkey : ((upd G2 n ((G2 n).put pid gp')) c).key = (G2 c).key := by
      by_cases e : c = n
      · subst e; rw [upd_same]; rfl
      · rw [s3 c e]
    simp only [absG, GO.abs] at hx ⊢
    rw [hkey]
    by_cases e : x = n
    · subst e
      rw [upd_same] at hx
      by_cases eq : q = pid
      · subst eq
        simp only [GO.put, upd_same, Option.map_some, Option.some.injEq] at hx
        obtain ⟨d0, c0, a1, a2, a3⟩ := hs.filed hx hc
        simp only [absG, GO.abs] at a3
        rw [a3]
        exact hf o q d0 key c0 (by simp only [absG, GO.abs, hg, Option.map_some, a1]) a2
      · simp only [GO.put, upd_other _ _ eq] at hx
        exact hF x q d key c hx hc
    · rw [s3 x e] at hx
      exact hF x q d key c hx hc

def Goes (h : Nat) (go : Oid → M Oid) : Prop :=
  ∀ w G c, Ok w G → Alive w c → Fine G c h → ∃ d w' G', go c w = (.ok d, w') ∧ Copied w G w' G' d c

theorem Copied.after {w w1 w2 : World} {G G2 : Oid → GO} {c d : Oid} (k : Ok w G) (e : Ext w w1) (C : Copied w1 G w2 G2 d c) : Copied w G w2 G2 d c where
  ok := C.ok
  grew := (e.grew k.apart).trans (e.next ▸ C.grew)
  new := e.next ▸ C.new
  alive := C.alive
  loose := C.loose
  look := C.look
  filed := C.filed

theorem Read.alive {w w' : World} {o c : Oid} (R : Read w w' G pl own no no no o c) : Alive w' c := by
  obtain ⟨ob, h1, h2⟩ := R.got
  exact R.inv.live o ob c h1 h2

/-- Fetch a member and copy it. -/
theorem fetch_go {h : Nat} {go : Oid → M Oid} (hgo : Goes h go) {w : World} {G : Oid → GO} (k : Ok w G) {c : Oid} {o : Oid} {get : M (Option Oid)}
    (hg : ∀ pl own, Inv w G pl own no no no → ∃ w1, get w = (.ok (some c), w1) ∧ Read w w1 G pl own no no no o c) (hf : Fine G c h) :
    ∃ w1, get w = (.ok (some c), w1) ∧ ∃ d w2 G2, go c w1 = (.ok d, w2) ∧ Copied w G w2 G2 d c := by
  have k' := k
  obtain ⟨pl, own, I⟩ := k
  obtain ⟨w1, h1, R⟩ := hg pl own I
  obtain ⟨d, w2, G2, h2, C⟩ := hgo w1 G c ⟨pl, own, R.inv⟩ R.alive hf
  exact ⟨w1, h1, d, w2, G2, h2, C.after k' R.ext⟩

theorem lookup_zip {α β : Type} [BEq α] [LawfulBEq α] : ∀ {ks : List α} {cs : List β} {k : α} {c : β}, (ks.zip cs).lookup k = some c → (k, c) ∈ ks.zip cs
  | [], _, _, _, h => by simp at h
  | _ :: _, [], _, _, h => by simp at h
  | a :: ks, b :: cs, k, c, h => by
    simp only [List.zip_cons_cons, List.lookup_cons] at h
    by_cases e : k = a
    · subst e; simp only [beq_self_eq_true, Option.some.injEq] at h; simp [h]
    · simp only [beq_eq_false_iff_ne.2 e] at h
      simp [lookup_zip h]

theorem lookup_zip_some {α β : Type} [BEq α] [LawfulBEq α] : ∀ {ks : List α} {cs : List β}, ks.Nodup → ∀ {k : α} {c : β}, (k, c) ∈ ks.zip cs → (ks.zip cs).lookup k = some c
  | [], _, _, _, _, h => by simp at h
  | _ :: _, [], _, _, _, h => by simp at h
  | a :: ks, b :: cs, hn, k, c, h => by
    simp only [List.zip_cons_cons, List.mem_cons, Prod.mk.injEq] at h
    rw [List.zip_cons_cons, List.lookup_cons]
    rcases h with ⟨rfl, rfl⟩ | h
    · simp
    · have : k ≠ a := fun e => (List.nodup_cons.1 hn).1 (e ▸ (List.of_mem_zip h).1)
      rw [beq_eq_false_iff_ne.2 this]
      exact lookup_zip_some (List.nodup_cons.1 hn).2 h

theorem mem_zip_right {α β : Type} : ∀ {ks : List α} {cs : List β}, ks.length = cs.length → ∀ {c : β}, c ∈ cs → ∃ k, (k, c) ∈ ks.zip cs
  | [], [], _, _, h => by simp at h
  | [], _ :: _, h, _, _ => by simp at h
  | _ :: _, [], h, _, _ => by simp at h
  | a :: ks, b :: cs, hl, c, h => by
    rcases List.mem_cons.1 h with rfl | h
    · exact ⟨a, by simp⟩
    · obtain ⟨k, hk⟩ := mem_zip_right (by simpa using hl) h
      exact ⟨k, by simp [hk]⟩

theorem gather_map {α β : Type} (g : α → β) (f : β → M Oid) : ∀ l : List α, gather (l.map g) f = gather l fun a => f (g a)
  | [] => rfl
  | a :: l => by simp only [List.map_cons, gather, gather_map g f l]

theorem copyProp_spec {h : Nat} {go : Oid → M Oid} (hgo : Goes h go) {w w' : World} {G G' : Oid → GO} {o n : Oid} {done : List Pid} (k : Ok w G) (ha : Alive w o)
    (hkids : ∀ nm c, Edge (G o) nm c → Fine G c h) (hcomp : CompactG (G o)) (hN : w.next ≤ n) (P : Partial w G o n done w' G') {pid : Pid} {gp : GP} (hg : (G o).prp pid = some gp) (hd : pid ∉ done) :
    ∃ w2 G2, copyProp go o n pid w' = (.ok (), w2) ∧ Partial w G o n (done ++ [pid]) w2 G2 := by
  have ho := k.lt ha
  have eo : G' o = G o := P.grew.same o ho
  obtain ⟨ob, hob⟩ := P.grew.heap o ha
  have hg' : (G' o).prp pid = some gp := by rw [eo]; exact hg
  have hkeys : KeysOk gp := by obtain ⟨pl, own, I⟩ := k; exact I.keys o pid gp hg
  have hprop : ∃ p, ob.prp pid = some p ∧ MatchP p gp := by obtain ⟨pl, own, I⟩ := P.ok; exact I.prop hob hg'
  obtain ⟨p, hp, hm⟩ := hprop
  -- the members, in any later state
  have kid : ∀ c ∈ kidsP gp, c < w.next ∧ ∀ w1 G1, Grew w'.next w' w1 G' G1 → Fine G1 c h ∧ ∀ m, look (absG G1) m c = look (absG G) m c := by
    intro c hc
    obtain ⟨nm, hnm⟩ := (mem_kidsP pid).1 hc
    have he : Edge (G o) nm c := ⟨pid, gp, hg, hnm⟩
    refine ⟨(k.bound he).2, fun w1 G1 g1 => ?_⟩
    have g := P.grew.trans (g1.weaken P.grew.next P.grew.apart)
    exact ⟨(hkids nm c he).congr (A := fun x => x < w.next) g.same (fun _ _ _ _ he => (k.bound he).2) (k.bound he).2, fun m => g.look k (k.bound he).2 m⟩
  have stay := fun (w1 : World) (G1 : Oid → GO) (g1 : Grew w'.next w' w1 G' G1) => (show (G1 o).prp pid = some gp by
    rw [g1.same o (Nat.lt_of_lt_of_le ho P.grew.next)]; exact hg')
  unfold copyProp
  rw [bind_ok (entry_ok hob pid), hp]
  have refl := (Ext.refl w').grew P.ok.apart
  cases gp with
  | data b =>
    cases p with
    | data b' =>
      simp only
      exact P.link k hN P.ok refl id hd hg (gp' := .data b) hm trivial (by simp [kidsP]) (by simp [kidsP]) (by intro c hc; cases hc) (fun _ => rfl)
    | _ => exact hm.elim
  | one c =>
    cases p with
    | one x =>
      simp only
      obtain ⟨h1, h2⟩ := kid c (by simp [kidsP])
      obtain ⟨w1, e1, d, w2, G2, e2, C⟩ := fetch_go (get := oneGet o pid) hgo P.ok (o := o) (fun pl own I => I.oneGet hob hg') (h2 _ _ refl).1
      rw [bind_ok e1]; simp only; rw [bind_ok e2]
      refine P.link k hN C.ok C.grew C.filed hd hg (gp' := .one d) (by intro e he; cases he; rfl) trivial (by simp [kidsP]) ?_ ?_ ?_
      · intro e he
        simp only [kidsP, List.mem_singleton] at he; subst he
        exact ⟨rfl, C.new, C.alive, C.loose⟩
      · intro e he; cases he; simp [kidsP]
      · intro m
        simp only [absP, lookVal]
        rw [C.look m, (h2 _ _ refl).2 m]
    | _ => exact hm.elim
  | vec xs nx =>
    cases p with
    | vec v =>
      simp only
      have hlen : v.refs.length = xs.length := by rw [hm.1]; simp
      have hat : ∀ i ∈ List.range v.refs.length, ∃ e, xs[i]? = some e := by
        intro i hi
        rw [List.mem_range, hlen] at hi
        exact ⟨xs[i], List.getElem?_eq_getElem hi⟩
      obtain ⟨cs, w2, G2, e1, k2, g2, hf2, l2, n2, c2, s2⟩ := gather_spec (f := copyVecStep go o pid v) (r := fun i => ((xs[i]?).map (·.2)).getD 0) (List.range v.refs.length) P.ok
        (fun i hi => by
          obtain ⟨e, he⟩ := hat i hi
          simp only [he, Option.map_some, Option.getD_some]
          exact Nat.lt_of_lt_of_le (kid e.2 (by simp only [kidsP, List.mem_map]; exact ⟨e, List.mem_of_getElem? he, rfl⟩)).1 P.grew.next)
        (fun i hi w1 G1 k1 g1 => by
          obtain ⟨e, he⟩ := hat i hi
          simp only [he, Option.map_some, Option.getD_some]
          have hil := List.mem_range.1 hi
          obtain ⟨h1, h2⟩ := kid e.2 (by simp only [kidsP, List.mem_map]; exact ⟨e, List.mem_of_getElem? he, rfl⟩)
          obtain ⟨ob1, hob1⟩ := g1.heap o ⟨ob, hob⟩
          obtain ⟨wa, e1, d, wb, Gb, e2, C⟩ := fetch_go (get := vecGet o pid i) hgo k1 (o := o) (c := e.2) (fun pl own I => I.vecGet hob1 (stay w1 G1 g1) (i := i) (j := i) (k := e.1) (by omega)
            (by simp only [clamp]; split <;> omega) he) (h2 _ _ g1).1
          refine ⟨d, wb, Gb, ?_, C⟩
          unfold copyVecStep
          rw [bind_ok e1]; simp only
          have hk : v.refs[i]? = some e.1 := by rw [hm.1, List.getElem?_map, he]; rfl
          have hk2 : e.1 < v.refs.length := by rw [hlen]; exact hcomp pid _ hg e (List.mem_of_getElem? he)
          rw [hk, Option.bind_some, List.getElem?_eq_getElem hk2]
          exact e2)
      rw [bind_ok e1]
      have hlc : xs.length = cs.length := by rw [l2, List.length_range, hlen]
      have hk1 : ((xs.map (·.1)).zip cs).map (·.1) = xs.map (·.1) := List.map_fst_zip (by simp [hlc])
      have hk2 : ((xs.map (·.1)).zip cs).map (·.2) = cs := List.map_snd_zip (by simp [hlc])
      refine P.link k hN k2 g2 hf2 hd hg (gp' := .vec ((xs.map (·.1)).zip cs) nx) ⟨by rw [hk1]; exact hm.1, hm.2.1, ?_⟩ ⟨by rw [hk1]; exact hkeys.1, ?_⟩ (by simp only [kidsP, hk2]; exact n2) ?_ ?_ ?_
      · intro i d hi
        by_cases h0 : 0 ≤ i
        · simp only [h0, if_true] at hi
          have hlt := (List.getElem?_eq_some_iff.1 hi).1
          refine ⟨i.toNat, (xs[i.toNat]'(by omega)).1, by omega, ?_⟩
          rw [List.getElem?_zip_eq_some]
          exact ⟨by simp [List.getElem?_eq_getElem (show i.toNat < xs.length by omega)], hi⟩
        · simp [h0] at hi
      · intro e he
        have : e.1 ∈ xs.map (·.1) := by rw [← hk1]; exact List.mem_map_of_mem he
        obtain ⟨e', h1, h2⟩ := List.mem_map.1 this
        rw [← h2]; exact hkeys.2 e' h1
      · intro c hc
        simp only [kidsP, hk2] at hc
        obtain ⟨j, hj⟩ := List.getElem?_of_mem hc
        exact ⟨⟨(j : Int), by simp [hj]⟩, c2 c hc⟩
      · rintro c ⟨i, hi⟩
        simp only [kidsP, hk2]
        by_cases h0 : 0 ≤ i
        · simp only [h0, if_true] at hi; exact List.mem_of_getElem? hi
        · simp [h0] at hi
      · intro m
        simp only [absP, lookVal, hk2]
        rw [s2 m]
        congr 1
        apply List.ext_getElem?
        intro i
        by_cases hi : i < xs.length
        · simp only [List.getElem?_map, hlen, List.getElem?_range hi, List.getElem?_eq_getElem hi, Option.map_some, Option.getD_some]
          rw [(kid (xs[i]).2 (by simp only [kidsP, List.mem_map]; exact ⟨_, List.getElem_mem hi, rfl⟩)).2 _ _ refl |>.2 m]
        · rw [List.getElem?_eq_none (by simp; omega), List.getElem?_eq_none (by simp; omega)]
    | _ => exact hm.elim
  | set xs nx =>
    cases p with
    | set v =>
      simp only
      have hmem : ∀ e ∈ xs, e.2.2 ∈ kidsP (.set xs nx) := fun e he => by simp only [kidsP, List.mem_map]; exact ⟨e, he, rfl⟩
      obtain ⟨cs, w2, G2, e1, k2, g2, hf2, l2, n2, c2, s2⟩ := gather_spec (f := fun e : Key × Nat × Oid => copySetStep go o pid (e.1, e.2.1)) (r := fun e => e.2.2) xs P.ok
        (fun e he => Nat.lt_of_lt_of_le (kid _ (hmem e he)).1 P.grew.next)
        (fun e he w1 G1 k1 g1 => by
          obtain ⟨h1, h2⟩ := kid _ (hmem e he)
          obtain ⟨ob1, hob1⟩ := g1.heap o ⟨ob, hob⟩
          obtain ⟨wa, e1, d, wb, Gb, e2, C⟩ := fetch_go (get := setGet o pid e.1) hgo k1 (o := o) (c := e.2.2) (fun pl own I => I.setGet hob1 (stay w1 G1 g1) (l := e.2.1) he) (h2 _ _ g1).1
          refine ⟨d, wb, Gb, ?_, C⟩
          unfold copySetStep
          rw [bind_ok e1]
          exact e2)
      rw [← gather_map (fun e : Key × Nat × Oid => (e.1, e.2.1)), ← hm.1] at e1
      rw [bind_ok e1]
      have hz1 : (xs.zip cs).map (·.1) = xs := List.map_fst_zip (by simp [l2])
      have hz2 : (xs.zip cs).map (·.2) = cs := List.map_snd_zip (by simp [l2])
      have hks : v.refs.map (·.1) = xs.map (·.1) := by rw [hm.1]; simp
      have hzk : (v.refs.map (·.1)).zip cs = (xs.zip cs).map fun e => (e.1.1, e.2) := by
        rw [hks, List.zip_map_left]; rfl
      have hkn : (v.refs.map (·.1)).Nodup := by rw [hks]; exact hkeys.1
      have f1 : ((xs.zip cs).map fun e => (e.1.1, e.1.2.1, e.2)).map (fun x => (x.1, x.2.1)) = xs.map fun x => (x.1, x.2.1) := by
        conv => rhs; rw [← hz1]
        simp [Function.comp_def]
      have f2 : ((xs.zip cs).map fun e => (e.1.1, e.1.2.1, e.2)).map (fun x => x.2.2) = cs := by
        conv => rhs; rw [← hz2]
        simp [Function.comp_def]
      have f3 : ((xs.zip cs).map fun e => (e.1.1, e.1.2.1, e.2)).map (fun x => x.1) = xs.map (·.1) := by
        conv => rhs; rw [← hz1]
        simp [Function.comp_def]
      have f4 : ((xs.zip cs).map fun e => (e.1.1, e.1.2.1, e.2)).map (fun x => x.2.1) = xs.map (·.2.1) := by
        conv => rhs; rw [← hz1]
        simp [Function.comp_def]
      have f5 : ((xs.zip cs).map fun e => (e.1.1, e.1.2.1, e.2)).map (fun x => (x.1, x.2.2)) = (v.refs.map (·.1)).zip cs := by
        rw [hzk]; simp [Function.comp_def]
      refine P.link k hN k2 g2 hf2 hd hg (gp' := .set ((xs.zip cs).map fun e => (e.1.1, e.1.2.1, e.2)) nx) ⟨by rw [f1]; exact hm.1, hm.2.1, ?_⟩
        ⟨by rw [f3]; exact hkeys.1, by rw [f4]; exact hkeys.2.1, ?_⟩ (by simp only [kidsP, f2]; exact n2) ?_ ?_ ?_
      · intro q d hq
        have := lookup_zip hq
        rw [hzk] at this
        obtain ⟨e, he, hee⟩ := List.mem_map.1 this
        cases hee
        exact ⟨e.1.2.1, List.mem_map.2 ⟨e, he, rfl⟩⟩
      · intro e he
        obtain ⟨e', h1, rfl⟩ := List.mem_map.1 he
        exact hkeys.2.2 e'.1 (by rw [← hz1]; exact List.mem_map_of_mem h1)
      · intro c hc
        simp only [kidsP, f2] at hc
        obtain ⟨q, hq⟩ := mem_zip_right (ks := v.refs.map (·.1)) (by rw [hks]; simp [l2]) hc
        exact ⟨⟨q, lookup_zip_some hkn hq⟩, c2 c hc⟩
      · rintro c ⟨q, hq⟩
        simp only [kidsP, f2]
        exact (List.of_mem_zip (lookup_zip hq)).2
      · intro m
        have hs2 := s2 m
        simp only [absP, lookVal, f5]
        congr 1
        rw [hks]
        have e5 : ((xs.map (·.1)).zip cs).map (fun e => (e.1, look (absG G2) m e.2)) = (xs.map (·.1)).zip (cs.map (look (absG G2) m)) := by
          rw [List.zip_map_right]; rfl
        rw [e5, hs2]
        apply List.ext_getElem?
        intro i
        by_cases hi : i < xs.length
        · have hx := (kid (xs[i]).2.2 (hmem _ (List.getElem_mem hi))).2 _ _ refl |>.2 m
          rw [show ((xs.map (·.1)).zip (xs.map fun a => look (absG G') m a.2.2))[i]? = some ((xs[i]).1, look (absG G') m (xs[i]).2.2) from
            List.getElem?_zip_eq_some.2 ⟨by simp [List.getElem?_eq_getElem hi], by simp [List.getElem?_eq_getElem hi]⟩, hx]
          simp [List.getElem?_eq_getElem hi]
        · rw [List.getElem?_eq_none (by simp; omega), List.getElem?_eq_none (by simp; omega)]
    | _ => exact hm.elim

theorem props_spec {h : Nat} {go : Oid → M Oid} (hgo : Goes h go) {w : World} {G : Oid → GO} {o n : Oid} (k : Ok w G) (ha : Alive w o)
    (hkids : ∀ nm c, Edge (G o) nm c → Fine G c h) (hcomp : CompactG (G o)) (hN : w.next ≤ n) : ∀ (l done : List Pid) {w' : World} {G' : Oid → GO}, Partial w G o n done w' G' →
      (done ++ l).Nodup → (∀ pid ∈ l, ∃ gp, (G o).prp pid = some gp) → ∃ w2 G2, each l (copyProp go o n) w' = (.ok (), w2) ∧ Partial w G o n (done ++ l) w2 G2 := by
  intro l
  induction l with
  | nil => intro done w' G' P _ _; exact ⟨w', G', rfl, by simpa using P⟩
  | cons pid l ih =>
    intro done w' G' P hn hl
    obtain ⟨gp, hgp⟩ := hl pid (by simp)
    obtain ⟨w1, G1, h1, P1⟩ := copyProp_spec hgo k ha hkids hcomp hN P hgp fun hd => by
      have := (List.nodup_append.1 hn).2.2 pid hd pid (by simp)
      exact this rfl
    obtain ⟨w2, G2, h2, P2⟩ := ih (done ++ [pid]) P1 (by simpa using hn) fun q hq => hl q (by simp [hq])
    exact ⟨w2, G2, by rw [each_cons h1, h2], by simpa using P2⟩

theorem sameLook_of {G G' : Oid → GO} {c o : Oid} (h1 : (G' c).key = (G o).key) (h2 : (G' c).cls = (G o).cls) (h3 : (G' c).pids = (G o).pids)
    (h4 : ∀ pid ∈ (G o).pids, ∃ gp gp', (G o).prp pid = some gp ∧ (G' c).prp pid = some gp' ∧ SameP G' gp' G gp) : SameLook G' c G o := by
  intro n
  cases n with
  | zero => rfl
  | succ n =>
    simp only [look, lookBy, absG, GO.abs, h1, h2, h3]
    congr 1
    refine map_congr' fun pid hp => ?_
    obtain ⟨gp, gp', e1, e2, e3⟩ := h4 pid hp
    simp only [e1, e2, Option.map_some]
    exact congrArg _ (congrArg _ (e3 n))

theorem copy_spec : ∀ (fuel h : Nat), h ≤ fuel → Goes h (copyObj fuel) := by
  intro fuel
  induction fuel with
  | zero => intro h hf w G o k ha hfine; cases hfine; omega
  | succ fuel ih =>
    intro h hf w G o k ha hfine
    cases hfine with
    | @mk _ h hkids hcomp =>
      obtain ⟨ob, hob⟩ := ha
      have k0 := k
      obtain ⟨pl, own, I⟩ := k
      have M := I.mat o ob hob
      have hne : ∀ x, x < w.next → x ≠ w.next := fun x hx e => absurd hx (by rw [e]; exact Nat.lt_irrefl _)
      have P : Partial w G o w.next [] (create ob.key ob.cls w).2 (upd G w.next (.fresh ob.key ob.cls)) := by
        refine ⟨⟨pl, own, create_spec I _ _⟩, ⟨rfl, rfl, rfl, rfl, rfl, rfl, Nat.le_succ _, ?_, fun x hx => upd_other _ _ (hne x hx), ?_⟩, ?_, ?_, ?_, ?_, ?_, ?_, ?_, ?_⟩
        · rintro x ⟨xb, hx⟩
          have := I.lt _ _ hx
          exact ⟨xb, by simp [create, upd_other _ _ (hne x this), hx]⟩
        · intro x nm c hx he
          by_cases e : x = w.next
          · subst e
            rw [upd_same] at he
            obtain ⟨pid, gp, h1, _⟩ := he
            simp [GO.fresh] at h1
          · rw [upd_other _ _ e] at he
            exact k0.apart x nm c hx he
        · exact ⟨⟨none, ob.key, [], fun _ => none, ob.cls⟩, by simp [create]⟩
        · intro x nm he
          by_cases e : x = w.next
          · subst e
            rw [upd_same] at he
            obtain ⟨pid, gp, h1, _⟩ := he
            simp [GO.fresh] at h1
          · rw [upd_other _ _ e] at he
            exact absurd (k0.bound he).2 (Nat.lt_irrefl _)
        · simp [GO.fresh, M.key]
        · simp [GO.fresh, M.cls]
        · simp [GO.fresh]
        · simp [GO.fresh]
        · simp
        · intro hf x q d key c hx hc
          simp only [absG, GO.abs] at hx ⊢
          by_cases e : x = w.next
          · subst e; simp [GO.fresh] at hx
          · rw [upd_other _ _ e] at hx
            obtain ⟨gp, g1, g2⟩ := Option.map_eq_some_iff.1 hx
            obtain ⟨nm, hnm⟩ := (mem_kidsP (gp := gp) (c := c) q).1 (by rw [← refs_absP, g2]; simp only [Val.refs, List.mem_map]; exact ⟨_, hc, rfl⟩)
            rw [upd_other _ _ (hne c (k0.bound ⟨q, gp, g1, hnm⟩).2)]
            exact hf x q d key c hx hc
      obtain ⟨w2, G2, h2, P2⟩ := props_spec (ih h (by omega)) k0 ⟨ob, hob⟩ hkids hcomp (Nat.le_refl _) ob.pids [] P (by simpa [M.pids] using I.nodup o) fun pid hp => by
        rw [M.pids] at hp; exact (I.pids o pid).1 hp
      refine ⟨w.next, w2, G2, ?_, P2.ok, P2.grew, Nat.le_refl _, P2.alive, P2.loose, sameLook_of P2.key P2.cls ?_ ?_, P2.filed⟩
      · unfold copyObj
        rw [bind_ok (getObj_ok hob), bind_ok (show create ob.key ob.cls w = (.ok w.next, (create ob.key ob.cls w).2) from rfl), bind_ok h2]; rfl
      · rw [P2.pids, ← M.pids]; rfl
      · intro pid hp
        obtain ⟨gp, hgp⟩ := (I.pids o pid).1 hp
        obtain ⟨gp', e1, e2⟩ := P2.present pid gp (by rw [List.nil_append, M.pids]; exact hp) hgp
        exact ⟨gp, gp', hgp, e1, e2⟩

end Verif.Graph
