import Verif.Lemmas.StoreLog
import Verif.Lemmas.GraphTree
/-!
# Walking the objects in the bytes of the file
-/
namespace Verif.Store
open Verif.Rb (Name)
open Verif.Volume
open Verif.Graph (Nm Place Act Shelf Rec SPrp Key Pid Oid upd play Placed GO GP Edge EdgeP Struct no absP Places Owners)
open Verif.Names (UpperCase)

variable {C : Coding} {u : Char → Text} {k : Nat}

/-- The references of a property with the names of the storages. -/
def edgesP (pid : Pid) : GP → List (Nm × Oid)
  | .data _ => []
  | .one c => [(.one pid, c)]
  | .vec xs _ => xs.map fun x => (.item pid x.1, x.2)
  | .set xs _ => xs.map fun x => (.item pid x.2.1, x.2.2)

def edges (g : GO) : List (Nm × Oid) := g.pids.flatMap fun pid => ((g.prp pid).map (edgesP pid)).getD []

theorem edgesP_edge {pid : Pid} {gp : GP} {e : Nm × Oid} (h : e ∈ edgesP pid gp) : EdgeP pid gp e.1 e.2 := by
  cases gp with
  | data b => cases h
  | one c => rw [List.mem_singleton.1 h]; exact ⟨rfl, rfl⟩
  | vec xs n => obtain ⟨x, h1, rfl⟩ := List.mem_map.1 h; exact ⟨x.1, rfl, h1⟩
  | set xs n => obtain ⟨x, h1, rfl⟩ := List.mem_map.1 h; exact ⟨x.1, x.2.1, rfl, h1⟩

theorem edges_edge {g : GO} {e : Nm × Oid} (h : e ∈ edges g) : Edge g e.1 e.2 := by
  obtain ⟨pid, _, h2⟩ := List.mem_flatMap.1 h
  cases hp : g.prp pid with
  | none => rw [hp] at h2; cases h2
  | some gp => rw [hp] at h2; exact ⟨pid, gp, hp, edgesP_edge h2⟩

theorem kids_edges (g : GO) : kids g.abs = (edges g).map (·.2) := by
  unfold kids edges
  rw [List.map_flatMap]
  refine congrArg (fun f => List.flatMap f g.pids) (funext fun pid => ?_)
  show (((g.prp pid).map absP).map _).getD [] = _
  cases g.prp pid with
  | none => rfl
  | some gp => cases gp <;> simp [edgesP, absP, Spec.Objects.Val.refs]

/-- What is listed of an object. -/
theorem props_items (C : Coding) (g : GO) : (C.items g.stored).map (fun i => (i.pid, i.body.shape)) = C.props g.abs := by
  unfold Coding.items Coding.props
  rw [List.map_append]
  congr 1
  · show (C.keyItem g.key).map _ = _
    show _ = match g.key with | none => [] | some k => _
    cases g.key <;> rfl
  · rw [List.map_filterMap]
    refine congrArg (fun f => List.filterMap f g.pids) (funext fun pid => ?_)
    show (((g.prp pid).map GP.stored).map _).map _ = ((g.prp pid).map absP).map _
    cases g.prp pid with
    | none => rfl
    | some gp => cases gp <;> simp [GP.stored, Coding.item, Body.shape, Coding.shape, absP, Function.comp_def]

/-- The storages of the references. -/
theorem kids_items (C : Coding) (g : GO) (p : Place) : ((C.items g.stored).flatMap fun i => i.body.kids (PathTree.text (path C.names p))).map (·.2) =
    (edges g).map fun e => join (PathTree.text (path C.names p)) (nmText C.names e.1) := by
  unfold Coding.items edges
  rw [List.flatMap_append]
  have h0 : (C.keyItem g.stored.key).flatMap (fun i => i.body.kids (PathTree.text (path C.names p))) = [] := by
    cases g.stored.key <;> rfl
  rw [h0, List.nil_append]
  show ((g.pids.filterMap fun pid => (g.stored.prp pid).map (C.item pid)).flatMap _).map _ = _
  induction g.pids with
  | nil => rfl
  | cons pid l ih =>
    rw [List.filterMap_cons, List.flatMap_cons, List.map_append, ← ih]
    have hs : g.stored.prp pid = (g.prp pid).map GP.stored := rfl
    rw [hs]
    cases g.prp pid with
    | none => rfl
    | some gp =>
      simp only [Option.map_some, List.flatMap_cons, List.map_append, Option.getD_some]
      congr 1
      cases gp <;> simp [GP.stored, Coding.item, Body.kids, edgesP, Function.comp_def, nmText, Names.member, refName]

/-- The storages have the objects of a graph. -/
structure Stands (C : Coding) (G : Oid → GO) (pl : Places) (D : Disk) : Prop where
  at' : ∀ o p, pl o = some p → D.dirs p = true ∧ D.cls p = C.cid (G o).cls ∧ D.items p = C.items (G o).stored
  down : ∀ o p, pl o = some p → ∀ e ∈ edges (G o), pl e.2 = some (e.1 :: p)

theorem join_nm {names : Nat → Text} (hn : NamesOk names) (p : Place) (nm : Nm) :
    join (PathTree.text (path names p)) (nmText names nm) = PathTree.text (path names (nm :: p)) := by
  have := join_spot hn p (.nm nm)
  rw [path_cons]
  exact this

theorem walkKids_ok (hn : NamesOk C.names) {D : Disk} {p : Place} {go : Vol → Name → Res (Res (List Line) × Vol)} {f : Oid → List Line}
    {L : View} (R : SRel C.names L D) :
    ∀ (E : List (Nm × Oid)) (l : List (Bool × Name)) {v : Vol} {A : AVol}, VS (Names.up u) k v A → look A = L →
      l.map (·.2) = (E.map fun e => join (PathTree.text (path C.names p)) (nmText C.names e.1)) →
      (∀ e ∈ E, D.dirs (e.1 :: p) = true ∧ ∀ {v : Vol} {A : AVol}, VS (Names.up u) k v A → look A = L →
        Good (go v (PathTree.text (path C.names (e.1 :: p)))) fun x => x.1 = .ok (f e.2) ∧ ∃ A', VS (Names.up u) k x.2 A' ∧ look A' = L) →
      Good (walkKids (Names.up u) go v l) fun x => x.1 = .ok (E.flatMap fun e => f e.2) ∧ ∃ A', VS (Names.up u) k x.2 A' ∧ look A' = L
  | [], [], v, A, V, hA, _, _ => Good.ok ⟨rfl, A, V, hA⟩
  | [], _ :: _, _, _, _, _, h, _ => by cases h
  | _ :: _, [], _, _, _, _, h, _ => by cases h
  | e :: E, (opt, q) :: l, v, A, V, hA, h, hE => by
    simp only [List.map_cons, List.cons.injEq] at h
    obtain ⟨rfl, h⟩ := h
    obtain ⟨hd, hgo⟩ := hE e (by simp)
    rw [← hA] at R
    obtain ⟨K, hK, _⟩ := R.dir _ hd
    have hK' : look A (path C.names (e.1 :: p)) = some (true, [], K) := by rw [← spot_path]; exact hK
    have hp : PathTree.Plain (path C.names (e.1 :: p)) := fun m hm => ⟨(path_plain hn _ m hm).1, (path_plain hn _ m hm).2.1⟩
    unfold walkKids
    rw [join_nm hn]
    refine Good.bind (find_ok V hp (V.not_blocked (by rw [hK']; simp))) ?_
    rintro ⟨x, v1⟩ ⟨V1, h1⟩
    dsimp only at h1 V1 ⊢
    subst h1
    obtain ⟨i, h2, _, _⟩ := look_some.1 hK'
    rw [h2]
    simp only [Option.map_some]
    refine Good.bind (hgo V1 hA) ?_
    rintro ⟨x, v2⟩ ⟨h3, A2, V2, e2⟩
    dsimp only at h3 V2 ⊢
    subst h3
    dsimp only
    rw [hA] at R
    refine Good.bind (walkKids_ok hn R E l V2 e2 h fun e he => hE e (by simp [he])) ?_
    rintro ⟨x, v3⟩ ⟨h4, A3, V3, e3⟩
    dsimp only at h4 V3 ⊢
    subst h4
    exact Good.ok ⟨rfl, A3, V3, e3⟩

/-- Walking gives the listing. -/
theorem walk_ok (hn : NamesOk C.names) {D : Disk} {L : View} (R : SRel C.names L D) {G : Oid → GO} {pl : Places} (T : Stands C G pl D) :
    ∀ (n : Nat) {o : Oid} {p : Place} {v : Vol} {A : AVol}, VS (Names.up u) k v A → look A = L → pl o = some p →
      Good (walk (Names.up u) n v (PathTree.text (path C.names p))) fun x =>
        x.1 = .ok (C.listing (fun o => (G o).abs) n o) ∧ ∃ A', VS (Names.up u) k x.2 A' ∧ look A' = L
  | 0, _, _, v, A, V, hA, _ => Good.ok ⟨rfl, A, V, hA⟩
  | n + 1, o, p, v, A, V, hA, ho => by
    obtain ⟨h1, h2, h3⟩ := T.at' o p ho
    have R0 := R
    rw [← hA] at R
    obtain ⟨K, hK, hc⟩ := R.dir _ h1
    have hK' : look A (path C.names p) = some (true, [], K) := by rw [← spot_path]; exact hK
    have hp : PathTree.Plain (path C.names p) := fun m hm => ⟨(path_plain hn _ m hm).1, (path_plain hn _ m hm).2.1⟩
    unfold walk
    refine Good.bind (getClass_ok V hp hK') ?_
    rintro ⟨x, v1⟩ ⟨e1, V1⟩
    dsimp only at e1 V1 ⊢
    subst e1
    dsimp only
    refine Good.bind (read_ok hn V1 R h1) ?_
    rintro ⟨x, v2⟩ ⟨e2, A2, V2, hA2⟩
    dsimp only at e2 V2 ⊢
    subst e2
    dsimp only
    rw [h3]
    refine Good.bind (walkKids_ok hn R0 (p := p) (f := C.listing (fun o => (G o).abs) n) (edges (G o)) _ V2 (hA2.trans hA) (kids_items C (G o) p) ?_) ?_
    · intro e he
      have hpl := T.down o p ho e he
      exact ⟨(T.at' _ _ hpl).1, fun V' hA' => walk_ok hn R0 T n V' hA' hpl⟩
    · rintro ⟨x, v3⟩ ⟨e3, A3, V3, hA3⟩
      dsimp only at e3 V3 ⊢
      subst e3
      refine Good.ok ⟨?_, A3, V3, hA3⟩
      rw [hc, h2, props_items, Coding.listing, kids_edges, List.flatMap_map]
      rfl

end Verif.Store
