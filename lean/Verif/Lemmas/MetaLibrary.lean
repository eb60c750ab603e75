import Verif.Lemmas.MetaRoom
import Verif.Model.Builtin
/-!
# Definitions: the library passes the tests

The tests run over the whole of the tables that come with the library, which are finite.
-/
namespace Verif.Meta
open Verif.Spec.Meta (Fixed State Step Runs Sound)

/-- The class of the root object and the other names of classes in the tables. -/
def fixed : Fixed := ⟨library.rootAuid, (library.aliases ++ library.extAliases).map (·.1)⟩

def okRoom (m : Nat) (d : Dict) : Bool :=
  decide (m ≤ d.nextPid) && (d.localPids.all fun x => decide (m < x)) && d.heap.all fun c => c.props.all fun p => decide (p.pid < 0x8000) || decide (m < p.pid)

theorem okRoom_cert {m : Nat} {d : Dict} (h : okRoom m d = true) : Above m d := by
  simp only [okRoom, Bool.and_eq_true, decide_eq_true_eq] at h
  refine ⟨h.1.1, fun x hx => by simpa using List.all_eq_true.1 h.1.2 x hx, fun c hc p hp h8 => ?_⟩
  have := List.all_eq_true.1 (List.all_eq_true.1 h.2 c hc) p hp
  simp only [Bool.or_eq_true, decide_eq_true_eq] at this
  omega

def d0 : Dict := (init library).2

theorem init_ok : (init library).1.isOk = true := by decide +kernel

theorem init_eq : init library = (.ok (), d0) := by
  have h := init_ok
  have e : d0 = (init library).2 := rfl
  revert h e
  generalize init library = x
  intro h e
  obtain ⟨r, d⟩ := x
  cases r with
  | error _ => cases h
  | ok _ => rw [e]

theorem lib : Lib library fixed.others d0 := okLib_cert init_eq (by decide +kernel)

theorem new_rel {V : Type} (C : Codec V) : Rel library fixed d0 C ⟨tableOf (newDict library).2.cls, [], false⟩ (newFile library) := okNew_cert (by decide +kernel)

theorem new_room : Room 65369 (newFile library) := ⟨okRoom_cert (by decide +kernel), (fun h => by cases h)⟩

theorem d0_next : d0.nextPid = 65467 := by decide +kernel

theorem d0_room : ∀ c ∈ d0.heap, ∀ p ∈ c.props, 0x8000 ≤ p.pid → d0.nextPid < p.pid := by
  rw [d0_next]
  exact (okRoom_cert (m := 65467) (d := d0) (by decide +kernel)).props

theorem declare_none {x : Auid} : ∀ (es : List CArgs) (T : Spec.Meta.Table), x ∉ es.map (·.auid) → T x = none →
    es.foldl (fun T e => T.set e.auid (((T e.auid).getD ⟨e.name, e.parent.getD e.auid, e.concrete, []⟩).addAll (e.props.map Spec.Meta.infoOf))) T x = none
  | [], _, _, h => h
  | e :: es, T, h, hT => by
    simp only [List.map_cons, List.mem_cons, not_or] at h
    exact declare_none es _ h.2 (by simp [Spec.Meta.Table.set, h.1, hT])

def okTable (es : List CArgs) (d : Dict) : Bool :=
  (es.all fun e => (d.byAuid.map (·.1)).contains e.auid) && d.byAuid.all fun x => decide (tableOf d.cls x.1 = Spec.Meta.declare es x.1)

theorem okTable_cert {es : List CArgs} {d : Dict} (h : okTable es d = true) : tableOf d.cls = Spec.Meta.declare es := by
  simp only [okTable, Bool.and_eq_true] at h
  funext x
  by_cases hx : x ∈ d.byAuid.map (·.1)
  · obtain ⟨y, hy, rfl⟩ := List.mem_map.1 hx
    exact of_decide_eq_true (List.all_eq_true.1 h.2 y hy)
  · have h1 : d.cls x = none := by
      cases hc : d.cls x with
      | none => rfl
      | some c =>
        obtain ⟨i, hi, _⟩ := cls_inv hc
        exact absurd (List.mem_map.2 ⟨_, get_mem hi, rfl⟩) hx
    rw [Spec.Meta.declare, declare_none es _ ?_ rfl]
    · simp [tableOf, h1]
    · intro hm
      obtain ⟨e, he, rfl⟩ := List.mem_map.1 hm
      have := List.all_eq_true.1 h.1 e he
      rw [List.contains_eq_mem, decide_eq_true_eq] at this
      exact hx this

theorem new_table : tableOf (newDict library).2.cls = Spec.Meta.declare (library.classes ++ library.ext) := okTable_cert (by decide +kernel)

end Verif.Meta
