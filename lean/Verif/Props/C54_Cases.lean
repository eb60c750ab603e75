import Verif.Props.C54_Foreign
/-!
# C54: cases

A file of another application, and what does not hold.
-/
namespace Verif.Meta
open Verif.Spec.Meta (Info Class Table Lists Good infoOf Fixed Free Object value store erase State Step Says Runs Sound declare With)

/-! ## A file of another application -/

/-- The classes of the file alone. -/
def alone (F : List FCls) : Dict := F.foldl load ⟨[], [], [], [], [], 0⟩

def okPlain (F : List FCls) : Bool :=
  apart (F.map (·.auid)) && okGood (alone F) && (F.all fun f => apart (f.props.map (·.auid))) &&
  (listing (alone F)).all fun x => match mkChain (alone F) 20 x.1 with | none => false | some cs => apart ((allProps cs).map (·.pid))

theorem okPlain_cert {F : List FCls} (h : okPlain F = true) : Plain F := by
  simp only [okPlain, Bool.and_eq_true] at h
  obtain ⟨⟨⟨h1, h2⟩, h3⟩, h4⟩ := h
  obtain ⟨g1, g2⟩ := loads_cls F (d := ⟨[], [], [], [], [], 0⟩) (by simp) (apart_nodup h1)
  have e : (alone F).cls = own F := by
    funext a
    by_cases ha : a ∈ F.map (·.auid)
    · obtain ⟨f, hf, rfl⟩ := List.mem_map.1 ha
      rw [alone, g1 f hf, own, merged_mem (apart_nodup h1) hf]
    · rw [alone, g2 a ha, own, merged_not ha]; rfl
  refine ⟨apart_nodup h1, ?_, fun f hf => apart_nodup (List.all_eq_true.1 h3 f hf), fun a cs hcs => ?_⟩
  · rw [← e]; exact okGood_cert h2
  · rw [← e] at hcs
    obtain ⟨c, _, _, hc⟩ := hcs.head
    have := List.all_eq_true.1 h4 (a, c) (mem_listing hc)
    simp only at this
    split at this
    · cases this
    · rename_i cs' hcs'
      rw [hcs.det (mkChain_chain hcs')]
      exact apart_nodup this

/-- The hypothesis of `C54_foreign_read` holds. -/
theorem C54_read_witness : Plain C54_file := okPlain_cert (by decide +kernel)

/-- An object of the class of the file, with values for its own property and for one that it inherits. -/
def C54_objs : List Obj := [⟨7, [(65523, [9, 1]), (65524, [145, 2])]⟩]

theorem C54_file_chain : ∃ p cs, Chain (own C54_file) 7 cs ∧ (⟨8, 0x426172, 65523, 9, true, false⟩ : PDef) ∈ allProps cs ∧ p ∈ allProps cs ∧ p.pid = 65524 ∧ p.name = 0x53756244657363726970746f7273 ∧ p.type % 251 = 145 := by
  have e : (alone C54_file).cls = own C54_file := by
    obtain ⟨g1, g2⟩ := loads_cls C54_file (d := ⟨[], [], [], [], [], 0⟩) (by simp) C54_read_witness.auids
    funext a
    by_cases ha : a ∈ C54_file.map (·.auid)
    · obtain ⟨f, hf, rfl⟩ := List.mem_map.1 ha
      rw [alone, g1 f hf, own, merged_mem C54_read_witness.auids hf]
    · rw [alone, g2 a ha, own, merged_not ha]; rfl
  have h : (mkChain (alone C54_file) 20 7).isSome = true ∧ (match mkChain (alone C54_file) 20 7 with
      | none => false
      | some cs => (allProps cs).contains (⟨8, 0x426172, 65523, 9, true, false⟩ : PDef) && (allProps cs).any fun p => decide (p.pid = 65524) && decide (p.name = 0x53756244657363726970746f7273) && decide (p.type % 251 = 145)) = true := by
    decide +kernel
  obtain ⟨cs, hcs⟩ := Option.isSome_iff_exists.1 h.1
  have h2 := h.2
  rw [hcs] at h2
  simp only [Bool.and_eq_true, List.contains_eq_mem, decide_eq_true_eq, List.any_eq_true] at h2
  obtain ⟨h3, p, h4, ⟨h5, h6⟩, h7⟩ := h2
  have := mkChain_chain hcs
  rw [e] at this
  exact ⟨p, cs, this, h3, h4, h5, h6, h7⟩

theorem C54_objs_rel : Both (ObjRel (own C54_file) C54_codec) C54_objs [⟨7, [(0x426172, [1]), (0x53756244657363726970746f7273, [2])]⟩] := by
  obtain ⟨p, cs, h1, h2, h3, h4, h5, h6⟩ := C54_file_chain
  refine .cons ⟨rfl, by decide, .cons ⟨cs, _, h1, h2, rfl, rfl, by decide⟩ (.cons ⟨cs, p, h1, h3, h4, h5, ?_⟩ .nil)⟩ .nil
  simp [C54_codec, h6]

/-- Opened for reading and for writing: `JPEG2000SubDescriptor` has other numbers now, and its names can be used. -/
theorem C54_foreign_run : (runs library C54_codec [.get 0 0x426172, .get 0 0x53756244657363726970746f7273, .keys 0] (openFile library C54_file C54_objs true)).1 =
      [.ok (.value (some [1])), .ok (.value (some [2])), .ok (.names [some 0x426172, some 0x53756244657363726970746f7273])] ∧
    (runs library C54_codec [.create 0x4a5045473230303053756244657363726970746f72, .set 1 0x5273697a (some [3]), .get 1 0x5273697a, .get 0 0x426172, .get 0 0x53756244657363726970746f7273, .reopen true, .get 1 0x5273697a]
      (openFile library C54_file C54_objs false)).1 =
      [.ok (.obj 1), .ok .none, .ok (.value (some [3])), .ok (.value (some [1])), .ok (.value (some [2])), .ok .none, .ok (.value (some [3]))] := by
  decide +kernel

/-! ## What does not hold -/

/-- A file that numbers `SubDescriptors` as the library numbers `SingleSequence` of `MPEGVideoDescriptor`, and does not
have that class.  The library's `SingleSequence` gets another number, but is still found under the old one: a value
set for `SubDescriptors` is stored with the type of `SingleSequence` and read under that name. -/
theorem C54_renumber_counterexample : (runs library C54_codec [.create 0x4d504547566964656f44657363726970746f72, .set 0 0x53756244657363726970746f7273 (some [1]),
      .get 0 0x53756244657363726970746f7273, .get 0 0x53696e676c6553657175656e6365] (openFile library (moved C54_essence 65535 65534) [] false)).1 =
    [.ok (.obj 0), .ok .none, .ok (.value none), .ok (.value (some [1]))] := by decide +kernel

/-- Properties of the class of the root object are not stored. -/
theorem C54_root_counterexample : (runs library C54_codec [.addProp library.rootAuid ⟨8, 0x426172, none, 9, true, false⟩, .create 0x526f6f74, .set 0 0x426172 (some [1]), .get 0 0x426172, .reopen false,
      .get 0 0x426172] (newFile library)).1 = [.ok .none, .ok (.obj 0), .ok .none, .ok (.value (some [1])), .ok .none, .error .keyError] := by decide +kernel

/-- The class `EdgeCode`. -/
def C54_edge : Auid := 0x0d01010101010400060e2b3402060101

/-- After opening again another name of a built-in class means the class as it is in the tables.  Registering under it
removes what the file had more. -/
theorem C54_alias_counterexample : (runs library C54_codec [.addProp C54_edge ⟨8, 0x426172, none, 9, true, false⟩, .create 0x45646765436f6465, .set 0 0x426172 (some [1]), .reopen false, .get 0 0x426172,
      .addClass ⟨0x45646765636f6465, C54_edge, none, true, []⟩, .get 0 0x426172] (newFile library)).1 =
    [.ok .none, .ok (.obj 0), .ok .none, .ok .none, .ok (.value (some [1])), .ok .none, .error .keyError] := by decide +kernel

/-- A known identifier under a new name raises. -/
theorem C54_rename_counterexample : (runs library C54_codec [.addClass ⟨0x466f6f, C54_edge, none, true, []⟩] (newFile library)).1 = [.error .keyError] := by decide +kernel

end Verif.Meta
