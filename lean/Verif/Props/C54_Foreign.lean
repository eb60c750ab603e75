import Verif.Lemmas.MetaForeign
import Verif.Props.C54_Names
/-!
# C54: files of other applications

The definitions of a file take the place of those of the library; definitions of the library that the file does not have
get other numbers when theirs are taken.
-/
namespace Verif.Meta
open Verif.Spec.Meta (Info Class Table Lists Good infoOf Fixed Free Object value store erase State Step Says Runs Sound declare With)

variable {V : Type} {C : Codec V} {F : List FCls}

theorem d0_table : tableOf d0.cls = declare library.classes := okTable_cert (by decide +kernel)

/-- What a stored class says. -/
def described (f : FCls) : Class := ⟨f.name, f.parent, f.concrete, f.props.map fun p => ⟨p.auid, p.name, p.type, p.optional, p.unique⟩⟩

/-- The classes of the file, and those of the library that the file does not have. -/
def fileTable (F : List FCls) : Table := fun a => match F.find? fun f => f.auid == a with | some f => some (described f) | none => declare library.classes a

theorem fileTable_eq (F : List FCls) : tableOf (merged d0.cls F) = fileTable F := by
  funext a
  simp only [tableOf, merged, fileTable]
  cases F.find? fun f => f.auid == a with
  | some f => rfl
  | none => exact congrFun d0_table a

theorem C54_libSize : total d0.heap d0.byAuid = 382 := by decide +kernel

theorem room_open {L : Library} {m : Nat} {os : List Obj} (A : Above m (openDict L F false).2) : Room m (openFile L F os false) := ⟨A, (fun h => by cases h)⟩

/-- **C54.** Every program on a file of another application that is opened for writing: as in `C54_programs_partial`.
The definitions of the file need to fit those of the library (`Fits`: same identifiers for the same names, no two
properties of an object with one number; for a class that only the library has, none of its numbers for a property
that it inherits from the file), the extensions can be added, and there is room for numbers. -/
theorem C54_foreign_partial (hC : Sound C) (Fi : Fits library fixed.others d0 F) {T' : Table} (hA : Adds library.rootAuid fixed.others (fileTable F) library.ext T') (hG : Good T')
    {m : Nat} (hm : m ≤ 65467) (hF : ∀ f ∈ F, ∀ p ∈ f.props, 0x8000 ≤ p.pid → m < p.pid)
    {os : List Obj} {xs : List (Object V)} (ho : Both (ObjRel (own F) C) os xs) (cs : List (Call V)) (hc : 0x8000 + 480 + fileSize F + cost library cs ≤ m) :
    (openDict library F false).1 = .ok () ∧
    ∃ n S', n ≤ cs.length ∧ Runs fixed C ⟨T', xs, false⟩ (cs.take n) ((runs library C cs (openFile library F os false)).1.take n) S' ∧
      (n = cs.length ∨ ∃ c, cs[n]? = some c ∧ ¬ Says fixed C S' c) := by
  rw [← fileTable_eq] at hA
  have A := foreign_room (F := F) lib d0_room (m := m) (by rw [d0_next]; exact hm) hF (by rw [C54_libSize, C54_extCost]; omega)
  rw [C54_libSize, C54_extCost] at A
  rcases foreign_rel (Y := fixed) lib Fi hA hG ho with h | ⟨h1, R⟩
  · have := A.next; omega
  · obtain ⟨n, S', g1, g2, _, g4⟩ := R.follow hC cs (m := m - (382 + fileSize F + 98)) (by rw [d0_next]; exact Nat.le_trans (Nat.sub_le _ _) hm) (room_open A) (by omega)
    exact ⟨h1, n, S', g1, g2, g4⟩

/-- **C54.** In a file that is opened for reading and has its classes, every name gives the value of its property,
whatever numbers the file uses; nothing can be set. -/
theorem C54_foreign_read (P : Plain F) {os : List Obj} {xs : List (Object V)} (ho : Both (ObjRel (own F) C) os xs) {c : Call V} (hc : c.reads = true) {r : Res (Ans V)} {S' : State V}
    (h : Step fixed C ⟨fun a => (F.find? fun f => f.auid == a).map described, xs, true⟩ c r S') : c.run library C (openFile library F os true) = (r, openFile library F os true) := by
  have e : (fun a => (F.find? fun f => f.auid == a).map described) = tableOf (own F) := by
    funext a
    simp only [tableOf, own, merged]
    cases F.find? fun f => f.auid == a <;> rfl
  rw [e] at h
  exact (open_read lib P ho hc h).1

/-! ## A case -/

/-- A class of the library with another number for one of its properties. -/
def moved (a : Auid) (q q' : Nat) : List FCls := (d0.cls a).toList.map fun c => { c.toFCls with props := c.props.map fun p => if p.pid = q then { p with pid := q' } else p }

/-- The class `EssenceDescriptor`. -/
def C54_essence : Auid := 0x0d01010101012400060e2b3402060101

/-- A file with three classes.  It numbers `SubDescriptors` as the library numbers a property of `JPEG2000SubDescriptor`, and
has a class of its own whose property has another such number. -/
def C54_file : List FCls := moved C54_inter 0 0 ++ moved C54_essence 65535 65524 ++ [⟨7, 0x466f6f, C54_essence, true, [⟨8, 0x426172, 65523, 9, true, false⟩]⟩]

theorem C54_file_fits : Fits library fixed.others d0 C54_file := okFits_cert lib (by decide +kernel)

/-- The classes after opening. -/
def C54_opened : Option (List (Auid × Class)) := addsAll library.rootAuid fixed.others ((listing (withFile d0 C54_file)).map fun x => (x.1, x.2.info)) library.ext

theorem C54_file_opened : C54_opened.isSome = true := by decide +kernel

theorem C54_file_ok : okGood (openDict library C54_file false).2 = true := by decide +kernel

theorem C54_file_low : ∀ f ∈ C54_file, ∀ p ∈ f.props, 0x8000 ≤ p.pid → 65467 < p.pid := by decide +kernel

theorem C54_file_size : fileSize C54_file = 5 := by decide +kernel

/-- The hypotheses of `C54_foreign_partial` hold. -/
theorem C54_foreign_witness : ∃ T', Adds library.rootAuid fixed.others (fileTable C54_file) library.ext T' ∧ Good T' := by
  obtain ⟨l, hl⟩ := Option.isSome_iff_exists.1 C54_file_opened
  have hA := addsAll_adds _ hl
  rw [← merged_list lib C54_file_fits] at hA
  refine ⟨_, by rw [← fileTable_eq]; exact hA, ?_⟩
  -- the table is that of the opened file
  have A := foreign_room (F := C54_file) lib d0_room (m := 65467) (by rw [d0_next]; omega) C54_file_low (by rw [C54_libSize, C54_extCost, C54_file_size]; omega)
  rw [C54_libSize, C54_extCost, C54_file_size] at A
  have G := okGood_cert C54_file_ok
  have s := readDefs_step lib C54_file_fits
  revert A G
  simp only [openDict, init_eq]
  cases hr : readDefs library d0 C54_file false with
  | mk r d2 =>
    rw [hr] at s
    simp only at s
    rcases s with s | ⟨rfl, s2, s3, s4, s5⟩
    · intro A G
      have hn : (extend library d2).2.nextPid ≤ d2.nextPid ∨ (extend library d2).2.nextPid < 0x8000 := by
        simp only [extend, register]
        have := registerClasses_next library.root library.ext d2
        split
        · rename_i e; rw [e] at this; exact this
        · rename_i d' e; rw [e] at this; simp only [registerAliases_next] at this ⊢; exact this
      cases r with
      | error _ => have := A.next; simp only at this; omega
      | ok _ => have := A.next; simp only [Bool.false_eq_true, if_false] at this; omega
    · simp only [Bool.false_eq_true, if_false]
      intro A G
      rcases extend_step s2 (by rw [s3]; exact hA) lib.extPid (fun x hx => by
          obtain ⟨h1, e, he, h2⟩ := lib.extNames x hx
          obtain ⟨c, h3, h4, _⟩ := hA.grows.2 e he
          exact ⟨h1, e.auid, c, h3, h4.trans h2⟩) with h | ⟨_, _, h3, _⟩
      · have := A.next; omega
      · rw [← h3]; exact G

end Verif.Meta
