import Verif.Lemmas.StoreWalk
import Verif.Props.C32_Vector
import Verif.Props.C49_Store
/-!
# C50: the objects of a program are in the bytes of its file

A program on objects (`Graph.runs`) makes calls on the container (`World.log`).  Here these calls run on the
bytes of a file.
-/
namespace Verif.Store
open Verif.Volume
open Verif.Graph (Nm Place Act Shelf Rec SPrp Key Pid Oid upd play Placed GO World newWorld runs Logged logged_new Inv no RelG Describes describes_new)
open Verif.Spec.Objects (Thing Val State Runs Step Inside lookVal Look LookVal)
open Verif.Names (UpperCase)

variable {C : Coding} {u : Char → Text}

/-- The calls of a program on the container. -/
def ops (C : Coding) (w : World) : List SOp := (w.log.flatMap C.calls).map (·.op C.names)

theorem log_ok (hu : UpperCase u) (hC : C.Ok) {ss : Nat} (hss : ss = 512 ∨ ss = 4096) (f : Bytes) (cs : List Graph.Call)
    (hf : ∀ a ∈ (runs cs newWorld).2.log, C.FitsAct a) :
    Good (do let v ← newVol ss f; srun (Names.up u) v (ops C (runs cs newWorld).2)) fun x =>
      x.1 = C.answers .new (runs cs newWorld).2.log ∧ ∃ A D, VS (Names.up u) ss x.2 A ∧ SRel C.names (Store.look A) D ∧
        Holds C (play .new (runs cs newWorld).2.log) D := by
  have hl := Logged.runs cs logged_new
  obtain ⟨h1, h2, h3⟩ := acts_ok hC _ (holds_new hC) hl.placed hf
  obtain ⟨v, hv, V⟩ := new_ok (Names.up u) hss f
  rw [hv]
  refine (run_ok hu hC.names _ V start_rel rfl h1).mono ?_
  rintro x ⟨e, A, V', R, _⟩
  exact ⟨e.trans h2, A, _, V', R, h3⟩

/-- **C50, every program.**  Any calls on objects, whatever they raise, garbage collection, saving, leaving
by an exception, closing and opening.  The calls that they make on the container, on the bytes of a new
file with sectors of 512 or 4096 bytes, answer as the storages of the specification do; and each time the
program read an object, its class and its properties were those of the specification.  So what the program
reads is what it would read from the bytes; unless the file outgrows the 32-bit sector numbers, and if what
is written fits the formats. -/
theorem C50_every_program (hu : UpperCase u) (hC : C.Ok) {ss : Nat} (hss : ss = 512 ∨ ss = 4096) (f : Bytes) (cs : List Graph.Call)
    (hf : ∀ a ∈ (runs cs newWorld).2.log, C.FitsAct a) :
    Good (do let v ← newVol ss f; srun (Names.up u) v (ops C (runs cs newWorld).2)) fun x =>
      x.1 = C.answers .new (runs cs newWorld).2.log ∧ Placed .new (runs cs newWorld).2.log :=
  (log_ok hu hC hss f cs hf).mono fun _ h => ⟨h.1, (Logged.runs cs logged_new).placed⟩

/-! ## The tree -/

theorem runs_app (cs : List Graph.Call) (c : Graph.Call) (w : World) : (runs (cs ++ [c]) w).2 = (c.run (runs cs w).2).2 := by
  induction cs generalizing w with
  | nil => rfl
  | cons a cs ih => exact ih _

theorem opened_modified (ro : Bool) (w : World) : (Graph.opened ro w).2.modified = [] := by
  have : ∀ w : World, (Graph.readObj [] w).2.modified = w.modified := by
    intro w
    unfold Graph.readObj
    split
    · rfl
    · split <;> rfl
  unfold Graph.opened
  simp only
  split <;> rename_i h <;> (have := this { w with ro := ro, heap := fun _ => none, man := fun _ => none, modified := [], held := [0], log := w.log ++ [.reopen] }; rw [h] at this; exact this)

theorem quiet_snd (m : Graph.M Unit) (w : World) : (Graph.quiet m w).2 = (m w).2 := by
  show (Graph.M.bind m _ w).2 = _
  unfold Graph.M.bind
  cases m w with
  | mk r w' => cases r <;> rfl

/-- Calls that close the file and open it again. -/
def Opens : Graph.Call → Prop
  | .reopen _ => True
  | .abort _ => True
  | _ => False

theorem modified_nil {c : Graph.Call} (h : Opens c) {w w' : World} {S S0 : State} {r : Res Graph.Ans}
    (he : Spec.Objects.effect S c = some (r, S0)) (hw : c.run w = (r, w')) : w'.modified = [] := by
  cases c with
  | reopen ro =>
    have hr : r = .ok .none := by
      simp only [Spec.Objects.effect] at he
      split at he
      · cases he; rfl
      · cases he
    subst hr
    have hq : (Graph.quiet (Graph.reopen ro) w).2 = w' := congrArg Prod.snd hw
    rw [← hq, quiet_snd]
    cases hm : Graph.save w with
    | mk x w1 =>
      cases x with
      | ok a =>
        have h2 : Graph.reopen ro w = Graph.opened ro w1 := Graph.bind_ok hm
        rw [h2]
        exact opened_modified ro w1
      | error e =>
        exfalso
        have h2 : Graph.reopen ro w = (.error e, w1) := Graph.bind_err hm
        have h3 : (Graph.Call.run (.reopen ro) w) = (.error e, w1) := Graph.bind_err h2
        rw [h3] at hw
        cases hw
  | abort ro =>
    have hq : (Graph.opened ro w).2 = w' := (quiet_snd (Graph.opened ro) w).symm.trans (congrArg Prod.snd hw)
    exact hq ▸ opened_modified ro w
  | _ => cases h

/-- What is in the storages when nothing is modified. -/
theorem stands {w : World} {S : State} {G : Oid → GO} {pl : Graph.Places} {own : Graph.Owners} (R : RelG w S G pl own)
    (hm : w.modified = []) (hl : Logged w) {D : Disk} (H : Holds C (play .new w.log) D) : Stands C G pl D where
  at' o p hp := by
    have hd := R.inv.dirs o p hp
    have hk : w.disk p = some (o, (G o).stored) := by
      cases ho : w.heap o with
      | none => exact R.inv.disk o p hp ho
      | some ob =>
        rcases R.inv.clean o p ob hp ho with h | h | h
        · exact h.elim
        · rw [hm] at h; cases h
        · exact h
    refine ⟨by rw [H.dirs, hl.dirs]; exact hd, ?_, ?_⟩
    · rw [H.cls p (by rw [hl.dirs]; exact hd), hl.cls, R.inv.cls o p hp]
    · rw [H.items p, Coding.itemsAt, hl.disk p, hk]; rfl
  down o p hp e he := by
    have hown := (R.inv.edge o e.1 e.2).1 (edges_edge he)
    rcases R.inv.down e.2 o e.1 p hown hp with h | h
    · exact h
    · exact h.1.elim

/-- **C50, the tree.**  A program on a new file has come to a state `S` of the specification, and then
closes the file (or leaves the block by an exception) and opens it again.  The specification then has a state
`S'`: after closing it is `S`, after an exception what was saved last, up to classes.  Walking the objects from the
root of the bytes, to any depth, lists exactly the objects of `S'`: their classes, keys, properties, values
and members, in order; unless the file outgrows the 32-bit sector numbers, and if what is written fits
the formats. -/
theorem C50_tree (hu : UpperCase u) (hC : C.Ok) {ss : Nat} (hss : ss = 512 ∨ ss = 4096) (f : Bytes) (cs : List Graph.Call) {S S0 : State}
    (D : Describes S (runs cs newWorld).2) {c : Graph.Call} (hc : Opens c) {r : Res Graph.Ans} (he : Spec.Objects.effect S c = some (r, S0))
    (hf : ∀ a ∈ (runs (cs ++ [c]) newWorld).2.log, C.FitsAct a) :
    ∃ S', Step S c r S' ∧ ∀ n,
      Good (do let v ← newVol ss f
               let (_, v) ← srun (Names.up u) v (ops C (runs (cs ++ [c]) newWorld).2)
               walk (Names.up u) n v ['/']) fun x => x.1 = .ok (C.listing S'.thing n 0) := by
  obtain ⟨w', S', h1, h2, ⟨⟨G, pl, own, R⟩, _, _⟩⟩ := D.step he
  have hw : (runs (cs ++ [c]) newWorld).2 = w' := by rw [runs_app, h1]
  refine ⟨S', h2, fun n => ?_⟩
  have hm := modified_nil hc he h1
  have hl : Logged w' := hw ▸ Logged.runs (cs ++ [c]) logged_new
  have h3 := log_ok hu hC hss f (cs ++ [c]) hf
  rw [hw] at h3 ⊢
  obtain ⟨v, hv, _⟩ := new_ok (Names.up u) hss f
  rw [hv] at h3 ⊢
  replace h3 : Good (srun (Names.up u) v (ops C w')) _ := h3
  show Good (do let (_, v) ← srun (Names.up u) v (ops C w'); walk (Names.up u) n v ['/']) _
  refine Good.bind h3 ?_
  rintro ⟨xs, v1⟩ ⟨_, A, D1, V, R1, H⟩
  dsimp only at V ⊢
  have := walk_ok hC.names R1 (stands R hm hl H) n V rfl R.inv.rootpl
  rw [R.thing]
  exact this.mono fun x hx => hx.1

/-- The same for closing a writable file. -/
theorem C50_close (hu : UpperCase u) (hC : C.Ok) {ss : Nat} (hss : ss = 512 ∨ ss = 4096) (f : Bytes) (cs : List Graph.Call) {S : State}
    (D : Describes S (runs cs newWorld).2) (hro : S.ro = false) (ro : Bool) (hf : ∀ a ∈ (runs (cs ++ [.reopen ro]) newWorld).2.log, C.FitsAct a) (n : Nat) :
    Good (do let v ← newVol ss f
             let (_, v) ← srun (Names.up u) v (ops C (runs (cs ++ [.reopen ro]) newWorld).2)
             walk (Names.up u) n v ['/']) fun x => x.1 = .ok (C.listing S.thing n 0) := by
  have he : Spec.Objects.effect S (.reopen ro) = some (.ok .none, { S with ro := ro, thing := S.thing, held := [0], saved := some S.thing }) := by
    simp [Spec.Objects.effect, State.save, hro, Spec.Objects.answer]
  obtain ⟨S', ⟨S0, h1, h2⟩, h3⟩ := C50_tree hu hC hss f cs D (c := .reopen ro) trivial he hf
  rw [he] at h1
  cases h1
  subst h2
  exact h3 n

/-- **C50.**  Any program on a new file, up to the first call that is not specified: what it answers is
specified, by the state `S`; and if it then closes the file, the bytes have the objects of `S`. -/
theorem C50_programs (hu : UpperCase u) (hC : C.Ok) {ss : Nat} (hss : ss = 512 ∨ ss = 4096) (f : Bytes) (cs : List Graph.Call) :
    ∃ m S, m ≤ cs.length ∧ Runs .new (cs.take m) ((runs cs newWorld).1.take m) S ∧
      (m = cs.length ∨ ∃ c, cs[m]? = some c ∧ Spec.Objects.effect S c = none) ∧
      (S.ro = false → ∀ ro, (∀ a ∈ (runs (cs.take m ++ [.reopen ro]) newWorld).2.log, C.FitsAct a) → ∀ n,
        Good (do let v ← newVol ss f
                 let (_, v) ← srun (Names.up u) v (ops C (runs (cs.take m ++ [.reopen ro]) newWorld).2)
                 walk (Names.up u) n v ['/']) fun x => x.1 = .ok (C.listing S.thing n 0)) := by
  obtain ⟨m, S, h1, h2, h3, h4⟩ := Graph.C32_programs_partial cs
  exact ⟨m, S, h1, h2, h4, fun hro ro hf n => C50_close hu hC hss f (cs.take m) h3 hro ro hf n⟩

/-! ## The listing tells all -/

/-- The listing tells what an object is: `names` are the properties that there are, the unique property is
only the key, and the members of a set have the unique property of the set. -/
structure Coding.Tells (C : Coding) (t : Oid → Thing) (x : Oid) : Prop where
  names : ∀ p ∈ (t x).names, (t x).val p ≠ none
  key : ∀ p ∈ (t x).names, ∀ k, C.kpid k ≠ p
  dict : ∀ p d, (t x).val p = some (.dict d) → ∀ e ∈ d, C.kpid e.1 = C.setKey p

theorem clsOut_inj {a b : Bytes} (h : clsOut a = clsOut b) : a = b := by
  unfold clsOut at h
  split at h <;> split at h <;> simp_all

variable {t t' : Oid → Thing} {n : Nat} {o o' : Oid}

theorem flat_same {α β γ : Type} {L : α → List γ} {L' : β → List γ} {P : α → Look} {P' : β → Look} :
    ∀ (l : List α) (l' : List β), l.length = l'.length →
      (∀ a ∈ l, ∀ b ∈ l', ∀ r r', L a ++ r = L' b ++ r' → P a = P' b ∧ r = r') →
      ∀ r r', l.flatMap L ++ r = l'.flatMap L' ++ r' → l.map P = l'.map P' ∧ r = r'
  | [], [], _, _, _, _, h => ⟨rfl, by simpa using h⟩
  | a :: l, b :: l', hl, hs, r, r', h => by
    rw [List.flatMap_cons, List.flatMap_cons, List.append_assoc, List.append_assoc] at h
    obtain ⟨h1, h2⟩ := hs a List.mem_cons_self b List.mem_cons_self _ _ h
    obtain ⟨h3, h4⟩ := flat_same l l' (by simpa using hl) (fun x hx y hy => hs x (.tail _ hx) y (.tail _ hy)) r r' h2
    exact ⟨by rw [List.map_cons, List.map_cons, h1, h3], h4⟩

theorem val_same (hC : C.Ok) {p : Pid} {v v' : Val} {f f' : Oid → Look} {L L' : Oid → List Line} (hsh : C.shape v = C.shape v')
    (hv : ∀ d, v = .dict d → ∀ e ∈ d, C.kpid e.1 = C.setKey p) (hv' : ∀ d, v' = .dict d → ∀ e ∈ d, C.kpid e.1 = C.setKey p)
    (hs : ∀ a ∈ v.refs, ∀ b ∈ v'.refs, ∀ r r', L a ++ r = L' b ++ r' → f a = f' b ∧ r = r') (r r' : List Line)
    (h : v.refs.flatMap L ++ r = v'.refs.flatMap L' ++ r') : lookVal f v = lookVal f' v' ∧ r = r' := by
  have hlen : v.refs.length = v'.refs.length := by
    cases v <;> cases v' <;> simp only [Coding.shape, reduceCtorEq, Shape.data.injEq, Shape.list.injEq, Shape.dict.injEq] at hsh
    · rfl
    · rfl
    · exact hsh
    · have := congrArg List.length hsh
      simpa [Val.refs] using this
  obtain ⟨h1, h2⟩ := flat_same _ _ hlen hs r r' h
  refine ⟨?_, h2⟩
  cases v <;> cases v' <;> simp only [Coding.shape, reduceCtorEq, Shape.data.injEq, Shape.list.injEq, Shape.dict.injEq] at hsh
  · rw [hsh]; rfl
  · simpa [Val.refs, lookVal] using h1
  · simpa [Val.refs, lookVal] using h1
  · rename_i d d'
    simp only [Val.refs, List.map_map] at h1
    simp only [lookVal, LookVal.dict.injEq]
    replace hv := hv d rfl
    replace hv' := hv' d' rfl
    clear h hs h2 hlen
    induction d generalizing d' with
    | nil => cases d' with
      | nil => rfl
      | cons => cases hsh
    | cons a d ih => cases d' with
      | nil => cases hsh
      | cons b d' =>
        simp only [List.map_cons, List.cons.injEq, Function.comp] at hsh h1 ⊢
        refine ⟨?_, ih d' hsh.2 h1.2 (fun e he => hv e (.tail _ he)) (fun e he => hv' e (.tail _ he))⟩
        rw [h1.1, hC.kb a.1 b.1 (by rw [hv a List.mem_cons_self, hv' b List.mem_cons_self]) hsh.1]

theorem names_same (hC : C.Ok) {T T' : Thing} {f f' : Oid → Look} {L L' : Oid → List Line} :
    ∀ ns ns' : List Pid, (∀ p ∈ ns, T.val p ≠ none) → (∀ p ∈ ns', T'.val p ≠ none) →
    (∀ p d, T.val p = some (.dict d) → ∀ e ∈ d, C.kpid e.1 = C.setKey p) → (∀ p d, T'.val p = some (.dict d) → ∀ e ∈ d, C.kpid e.1 = C.setKey p) →
    (∀ p v p' v', T.val p = some v → T'.val p' = some v' → ∀ a ∈ v.refs, ∀ b ∈ v'.refs, ∀ r r', L a ++ r = L' b ++ r' → f a = f' b ∧ r = r') →
    (ns.filterMap fun pid => (T.val pid).map fun v => (pid, C.shape v)) = (ns'.filterMap fun pid => (T'.val pid).map fun v => (pid, C.shape v)) →
    ∀ r r', (ns.flatMap fun pid => ((T.val pid).map Val.refs).getD []).flatMap L ++ r = (ns'.flatMap fun pid => ((T'.val pid).map Val.refs).getD []).flatMap L' ++ r' →
    (ns.map fun p => (p, (T.val p).map (lookVal f))) = (ns'.map fun p => (p, (T'.val p).map (lookVal f'))) ∧ r = r'
  | [], [], _, _, _, _, _, _, r, r', h => ⟨rfl, by simpa using h⟩
  | [], q :: ns', _, h2, _, _, _, hp, _, _, _ => by
    cases hq : T'.val q with
    | none => exact absurd hq (h2 q List.mem_cons_self)
    | some v => simp [hq] at hp
  | p :: ns, [], h1, _, _, _, _, hp, _, _, _ => by
    cases hq : T.val p with
    | none => exact absurd hq (h1 p List.mem_cons_self)
    | some v => simp [hq] at hp
  | p :: ns, q :: ns', h1, h2, h3, h4, hs, hp, r, r', h => by
    cases hv : T.val p with
    | none => exact absurd hv (h1 p List.mem_cons_self)
    | some v =>
    cases hv' : T'.val q with
    | none => exact absurd hv' (h2 q List.mem_cons_self)
    | some v' =>
    simp only [List.filterMap_cons, hv, hv', Option.map_some, List.cons.injEq, Prod.mk.injEq] at hp
    obtain ⟨⟨rfl, hsh⟩, hp⟩ := hp
    simp only [List.flatMap_cons, hv, hv', Option.map_some, Option.getD_some, List.flatMap_append, List.append_assoc] at h
    obtain ⟨e1, e2⟩ := val_same hC hsh (fun d hd => h3 p d (hd ▸ hv)) (fun d hd => h4 p d (hd ▸ hv')) (hs p v p v' hv hv') _ _ h
    obtain ⟨e3, e4⟩ := names_same hC ns ns' (fun x hx => h1 x (.tail _ hx)) (fun x hx => h2 x (.tail _ hx)) h3 h4 hs hp r r' e2
    refine ⟨?_, e4⟩
    rw [List.map_cons, List.map_cons, hv, hv', Option.map_some, Option.map_some, e1, e3]

theorem inside_trans {t : Oid → Thing} {a b x : Oid} (h1 : Inside t a b) (h2 : Inside t b x) : Inside t a x := by
  induction h2 with
  | refl => exact h1
  | step h _ ih => exact .step h ih

theorem listing_same (hC : C.Ok) : ∀ n o o', (∀ x, Inside t o x → C.Tells t x) → (∀ x, Inside t' o' x → C.Tells t' x) →
    (∀ x y, Inside t o x → Inside t' o' y → C.cid (t x).cls = C.cid (t' y).cls → (t x).cls = (t' y).cls) → ∀ r r', C.listing t n o ++ r = C.listing t' n o' ++ r' → Spec.Objects.look t n o = Spec.Objects.look t' n o' ∧ r = r'
  | 0, o, o', _, _, _, r, r', h => ⟨rfl, by simpa [Coding.listing] using h⟩
  | n + 1, o, o', hT, hT', hcid, r, r', h => by
    simp only [Coding.listing, List.cons_append, List.cons.injEq, Line.obj.injEq] at h
    obtain ⟨⟨hc, hp⟩, h⟩ := h
    have hc := hcid o o' .refl .refl (clsOut_inj hc)
    have T := hT o .refl
    have T' := hT' o' .refl
    have hk : (t o).key = (t' o').key ∧ ((t o).names.filterMap fun pid => ((t o).val pid).map fun v => (pid, C.shape v)) =
        ((t' o').names.filterMap fun pid => ((t' o').val pid).map fun v => (pid, C.shape v)) := by
      have hno : ∀ (A : Thing) (k : Key) (s : Shape) (l : List (Nat × Shape)), (∀ p ∈ A.names, ∀ k, C.kpid k ≠ p) →
          (A.names.filterMap fun pid => (A.val pid).map fun v => (pid, C.shape v)) ≠ (C.kpid k, s) :: l := by
        intro A k s l ha he
        have : (C.kpid k, s) ∈ A.names.filterMap fun pid => (A.val pid).map fun v => (pid, C.shape v) := he ▸ List.mem_cons_self
        obtain ⟨p, hp, hq⟩ := List.mem_filterMap.1 this
        obtain ⟨v, _, hv⟩ := Option.map_eq_some_iff.1 hq
        exact ha p hp k (Prod.mk.inj hv).1.symm
      unfold Coding.props at hp
      cases hk : (t o).key with
      | none => cases hk' : (t' o').key with
        | none => simp only [hk, hk', List.nil_append] at hp; exact ⟨rfl, hp⟩
        | some k => simp only [hk, hk', List.nil_append, List.cons_append] at hp; exact absurd hp (hno _ _ _ _ T.key)
      | some k => cases hk' : (t' o').key with
        | none => simp only [hk, hk', List.nil_append, List.cons_append] at hp; exact absurd hp.symm (hno _ _ _ _ T'.key)
        | some k' =>
          simp only [hk, hk', List.nil_append, List.cons_append, List.cons.injEq, Prod.mk.injEq, Shape.data.injEq] at hp
          exact ⟨by rw [hC.kb k k' hp.1.1 hp.1.2], hp.2⟩
    have hs : ∀ p v p' v', (t o).val p = some v → (t' o').val p' = some v' → ∀ a ∈ v.refs, ∀ b ∈ v'.refs, ∀ r r',
        C.listing t n a ++ r = C.listing t' n b ++ r' → Spec.Objects.look t n a = Spec.Objects.look t' n b ∧ r = r' := by
      intro p v p' v' hv hv' a ha b hb
      have i1 : ∀ x, Inside t a x → Inside t o x := fun x hx => inside_trans (.step ⟨p, v, hv, ha⟩ .refl) hx
      have i2 : ∀ x, Inside t' b x → Inside t' o' x := fun x hx => inside_trans (.step ⟨p', v', hv', hb⟩ .refl) hx
      exact listing_same hC n a b (fun x hx => hT x (i1 x hx)) (fun x hx => hT' x (i2 x hx)) (fun x y hx hy => hcid x y (i1 x hx) (i2 y hy))
    obtain ⟨e1, e2⟩ := names_same hC _ _ T.names T'.names T.dict T'.dict hs hk.2 r r' h
    refine ⟨?_, e2⟩
    show Look.obj _ _ _ = Look.obj _ _ _
    rw [hk.1, hc]
    exact congrArg (Look.obj _ _) e1

/-- **C50, the listing tells all.**  If two roots have the same listing, and classes have different ids, they look the same: the same keys, classes, properties in
the same order, values and members.  So the bytes tell all that a program could see of its objects. -/
theorem C50_determines (hC : C.Ok) (n : Nat) (hT : ∀ x, Inside t o x → C.Tells t x)
    (hT' : ∀ x, Inside t' o' x → C.Tells t' x)
    (hcid : ∀ x y, Inside t o x → Inside t' o' y → C.cid (t x).cls = C.cid (t' y).cls → (t x).cls = (t' y).cls) (h : C.listing t n o = C.listing t' n o') : Spec.Objects.look t n o = Spec.Objects.look t' n o' :=
  (listing_same hC n o o' hT hT' hcid [] [] (by rw [h])).1

/-! ## A case that meets the hypotheses -/

/-- A coding: ids of classes and keys by one byte. -/
def dCoding : Coding where
  names := dNames
  cid c := if c = 0 then List.replicate 16 0 else if c = 1 then empty.cls [] else List.replicate 15 7 ++ [UInt8.ofNat c]
  kb k := if k < 256 then List.replicate 15 0 ++ [UInt8.ofNat k] else List.replicate k 1
  kpid _ := 0x4401
  setKey _ := 0x4401
  setSize _ := 16

theorem dCoding_ok : dCoding.Ok where
  names := dNames_ok
  cid c := by
    simp only [dCoding]
    split
    · simp
    · split <;> simp [empty]
  none := rfl
  root := rfl
  kb a b _ h := by
    have hl : ∀ k : Nat, ¬ k < 256 → (List.replicate 15 0 ++ [UInt8.ofNat 0]).length ≠ (List.replicate k (1 : UInt8)).length := by
      intro k hk; rw [List.length_replicate]; simp; omega
    have key : ∀ a b : Nat, (if a < 256 then List.replicate 15 0 ++ [UInt8.ofNat a] else List.replicate a 1) =
        (if b < 256 then List.replicate 15 0 ++ [UInt8.ofNat b] else List.replicate b 1) → a = b := by
      intro a b h
      split at h <;> split at h <;> rename_i h1 h2
      · simp only [List.append_cancel_left_eq, List.cons.injEq, and_true] at h
        have := congrArg UInt8.toNat h
        simp only [UInt8.toNat_ofNat'] at this
        omega
      · exact absurd (congrArg List.length h) (hl b h2)
      · exact absurd (congrArg List.length h).symm (hl a h1)
      · have := congrArg List.length h
        simpa using this
    exact key a b h
  kpid _ := by show 0x4401 < 65536; decide
  setKey _ := by show 0x4401 < 65536; decide
  setSize _ := .inl rfl

/-- Whether the sizes fit. -/
def fits (C : Coding) (pid : Pid) : SPrp → Bool
  | .data b => b.length < 65536
  | .one => true
  | .vec refs next => refs.length < 2 ^ 32 && refs.all (· < 2 ^ 32) && next < 2 ^ 32
  | .set refs next => refs.length < 2 ^ 32 && refs.all (fun k => k.2 < 2 ^ 32 && C.kpid k.1 == C.setKey pid && (C.kb k.1).length == C.setSize pid) && next < 2 ^ 32

def fitsAct (C : Coding) : Act → Bool
  | .makeDir _ (.one pid) => pid < 65536
  | .makeDir _ (.item pid key) => pid < 65536 && key < 2 ^ 32
  | .write _ r => r.pids.length + 1 < 65536 && r.pids.all (fun pid => pid < 65536 && (r.prp pid).all (fits C pid)) &&
      r.key.all fun k => !r.pids.contains (C.kpid k) && (C.kb k).length < 65536
  | _ => true

theorem fits_ok {pid : Pid} {s : SPrp} (h : fits C pid s = true) : C.Fits pid s := by
  cases s with
  | set refs next =>
    simp only [fits, Bool.and_eq_true, decide_eq_true_eq, List.all_eq_true, beq_iff_eq] at h
    exact ⟨h.1.1, fun k hk => ⟨(h.1.2 k hk).1.1, (h.1.2 k hk).1.2, (h.1.2 k hk).2⟩, h.2⟩
  | _ => simp_all [fits, Coding.Fits]

theorem fitsAct_ok {a : Act} (h : fitsAct C a = true) : C.FitsAct a := by
  cases a with
  | makeDir p nm => cases nm <;> simp_all [fitsAct, Coding.FitsAct, NmOk]
  | write p r =>
    simp only [fitsAct, Bool.and_eq_true, decide_eq_true_eq, List.all_eq_true] at h
    refine ⟨h.1.1, fun pid hp => ⟨(h.1.2 pid hp).1, fun s hs => ?_⟩, fun k hk => ?_⟩
    · have := (h.1.2 pid hp).2
      rw [hs] at this
      exact fits_ok this
    · have := h.2
      rw [hk] at this
      simpa using this
  | _ => trivial

/-- Objects in properties of all kinds, nested; changed, closed, opened, changed. -/
def dProgram : List Graph.Call :=
  [.create none 5, .setData 1 7 [1, 2], .oneSet 0 2 1, .create (some 3) 6, .create (some 4) 6, .create none 8, .setData 4 9 [],
   .setExtend 1 0x1901 [2, 3], .vecExtend 2 0x1902 [4], .reopen false, .oneGet 0 2, .setData 1 7 [3], .setPop 1 0x1901 4]

example : (runs dProgram newWorld).1 = [.ok (.obj 1), .ok .none, .ok .none, .ok (.obj 2), .ok (.obj 3), .ok (.obj 4), .ok .none,
    .ok .none, .ok .none, .ok .none, .ok (.obj 1), .ok .none, .ok (.obj 3)] := by decide +kernel

/-- What the program writes fits the formats. -/
theorem dProgram_fits : ∀ a ∈ (runs (dProgram ++ [.reopen true]) newWorld).2.log, dCoding.FitsAct a := by
  have h : (runs (dProgram ++ [.reopen true]) newWorld).2.log.all (fitsAct dCoding) = true := by decide +kernel
  exact fun a ha => fitsAct_ok (List.all_eq_true.1 h a ha)

/-- An object in the root. -/
def dSmall : List Graph.Call := [.create none 5, .setData 1 7 [1, 2], .oneSet 0 2 1, .reopen true]

def dSmallOps (n d : Text) : List SOp :=
  [.setClass ['/'] (dCoding.cid 1), .makeDir ['/'] n, .setClass d (dCoding.cid 5), .write ['/'] [⟨2, 0x22, .one n⟩],
   .write d [⟨7, 0x82, .data [1, 2]⟩], .reopen, .getClass ['/'], .read ['/']]

theorem dSmall_ops : ops dCoding (runs dSmall newWorld).2 = dSmallOps nHead ('/' :: nHead) := by
  have h : ops dCoding (runs dSmall newWorld).2 = dSmallOps (Names.single (dNames 2) 2) (PathTree.text [Names.single (dNames 2) 2]) := rfl
  rw [h, head_name]
  rfl

/-- The objects of the program. -/
def dThing : Oid → Thing
  | 0 => ⟨none, 1, [2], fun p => if p = 2 then some (.one 1) else none⟩
  | 1 => ⟨none, 5, [7], fun p => if p = 7 then some (.data [1, 2]) else none⟩
  | _ => .new none 1

/-- Before the object is put in the root. -/
def dLoose : State := ⟨false, fun o => if o = 1 then dThing 1 else .new none 1, 2, [1, 0], none⟩

theorem dLoose_refers (a b : Oid) : ¬ Spec.Objects.Refers dLoose.thing a b := by
  rintro ⟨p, v, hv, hm⟩
  have : v.refs = [] := by
    simp only [dLoose] at hv
    split at hv
    · simp only [dThing] at hv
      split at hv
      · cases hv; rfl
      · cases hv
    · cases hv
  rw [this] at hm
  cases hm

theorem dLoose_linkable : dLoose.Linkable 0 1 := by
  refine ⟨by decide, ⟨by decide, fun o => dLoose_refers o 1⟩, fun h => ?_⟩
  cases h with
  | step h _ => exact dLoose_refers _ _ h

/-- The hypotheses of `C50_tree` and `C50_close` are met. -/
theorem dSmall_describes : ∃ S, Describes S (runs [.create none 5, .setData 1 7 [1, 2], .oneSet 0 2 1] newWorld).2 ∧ S.ro = false ∧ S.thing = dThing := by
  have D1 := (describes_new.does (c := .create none 5) rfl rfl).2
  have D2 := (D1.does (c := .setData 1 7 [1, 2]) (r := .ok .none) (S0 := dLoose) (by
    simp only [Spec.Objects.effect, Spec.Objects.changing, State.new]
    simp [Thing.new, Spec.Objects.answer, dLoose, State.set, Thing.set, dThing]
    funext x
    split <;> simp_all) rfl).2
  have D3 := (D2.does (c := .oneSet 0 2 1) (r := .ok .none) (S0 := ⟨false, dThing, 2, [1, 0], none⟩) (by
    have h0 : (dLoose.thing 0).val 2 = none := rfl
    simp only [Spec.Objects.effect, Spec.Objects.changing, h0, dLoose_linkable]
    simp [Spec.Objects.answer, dLoose, State.set, Thing.set, Thing.new]
    funext x
    match x with
    | 0 => rfl
    | 1 => rfl
    | x + 2 => simp [dThing, Thing.new]) rfl).2
  exact ⟨_, D3, rfl, rfl⟩

/-- What is written fits. -/
theorem dSmall_fits : ∀ a ∈ (runs dSmall newWorld).2.log, dCoding.FitsAct a := by
  have h : (runs dSmall newWorld).2.log.all (fitsAct dCoding) = true := by decide +kernel
  exact fun a ha => fitsAct_ok (List.all_eq_true.1 h a ha)

/-- The hypotheses of `C50_determines` are met. -/
example (x : Oid) (_ : Inside dThing 0 x) : dCoding.Tells dThing x := by
  match x with
  | 0 => exact ⟨by decide, by intro p hp _; show 0x4401 ≠ p; revert p; decide, by intro p d h; simp only [dThing] at h; split at h <;> cases h⟩
  | 1 => exact ⟨by decide, by intro p hp _; show 0x4401 ≠ p; revert p; decide, by intro p d h; simp only [dThing] at h; split at h <;> cases h⟩
  | x + 2 => exact ⟨nofun, nofun, nofun⟩

/-- The walk comes to its end. -/
theorem dSmall_walk : (do let v ← newVol 512 []
                          let (_, v) ← srun (Names.up Names.asciiUpper) v (ops dCoding (runs dSmall newWorld).2)
                          let (x, _) ← walk (Names.up Names.asciiUpper) 3 v ['/']
                          .ok x) =
    .ok (.ok [.obj (some (dCoding.cid 1)) [(2, .one)], .obj (some (dCoding.cid 5)) [(7, .data [1, 2])]]) := by
  rw [dSmall_ops]
  decide +kernel

end Verif.Store
