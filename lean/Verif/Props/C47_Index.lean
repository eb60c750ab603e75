import Verif.Model.IndexName
/-!
# C47: copies and the names of index streams

A vector or set that was read or that has got a member has an index name, and its data is that name.
-/
namespace Verif.IndexName
open Verif.Names

variable {p : Idx}

/-- The property has the index name `n`. -/
structure Named (p : Idx) (n : Text) : Prop where
  data : p.data = some n
  index : p.index = some n

/-- The object can be written and read again, and the property has the same members then. -/
def Survives (p : Idx) : Prop := ∃ q, p.again = .ok q ∧ q.count = p.count

theorem streamName_inj {a b : Text} (h : streamName a = streamName b) : a = b := List.append_cancel_right h

/-- A property with a name survives. -/
theorem C47_index_named {n : Text} (h : Named p n) : Survives p := by
  refine ⟨{ p with data := some n, index := some n }, ?_, rfl⟩
  have hw : p.write = .ok (n, streamName n) := by
    unfold Idx.write Idx.getName
    rw [h.data, h.index]
    cases p.isSet <;> rfl
  simp only [Idx.again, hw]
  simp [Bind.bind, Except.bind, Idx.read]

theorem appends_named {n : Text} (h : Named p n) : ∀ k, Named (p.appends k) n ∧ (p.appends k).count = p.count + k ∧ (p.appends k).pid = p.pid := by
  intro k
  induction k generalizing p with
  | zero => exact ⟨h, rfl, rfl⟩
  | succ k ih =>
    have h1 : Named p.append n ∧ p.append.count = p.count + 1 ∧ p.append.pid = p.pid := by
      unfold Idx.append Idx.getName
      cases p.isSet
      · simp only [h.index]; exact ⟨⟨h.data, h.index⟩, rfl, rfl⟩
      · simp only [h.index]; exact ⟨⟨h.data, h.index⟩, rfl, rfl⟩
    obtain ⟨a, b, c⟩ := ih h1.1
    exact ⟨a, by rw [Idx.appends, b, h1.2.1]; omega, by rw [Idx.appends, c, h1.2.2]⟩

theorem append_none (h : p.index = none) : Named p.append (indexName p.name p.pid) ∧ p.append.count = p.count + 1 := by
  unfold Idx.append Idx.getName
  cases p.isSet <;> simp only [h] <;> exact ⟨⟨rfl, rfl⟩, rfl⟩

/-- **C47 (index, other file).** A property with members, copied into another file whatever its pid is
there, has the name that the library gives it there and survives. -/
theorem C47_index_other (q : Nat) (hc : 0 < p.count) : Named (p.copyOther q) (indexName p.name q) ∧ (p.copyOther q).count = p.count ∧ Survives (p.copyOther q) := by
  obtain ⟨k, hk⟩ : ∃ k, p.count = k + 1 := ⟨p.count - 1, by omega⟩
  obtain ⟨h1, h2⟩ := append_none (p := p.bare q) rfl
  obtain ⟨a, b, _⟩ := appends_named h1 k
  have e : p.copyOther q = ((p.bare q).append).appends k := by unfold Idx.copyOther; rw [hk]; rfl
  rw [e]
  refine ⟨a, ?_, C47_index_named a⟩
  rw [b, h2, hk]; show 0 + 1 + k = k + 1; omega

/-- **C47 (index, same file).** A set always survives. -/
theorem C47_index_set {n : Text} (h : Named p n) (hs : p.isSet = true) : Named p.copySame n ∧ p.copySame.count = p.count ∧ Survives p.copySame := by
  have : Named p.copySame n ∧ p.copySame.count = p.count := by
    unfold Idx.copySame Idx.bare
    simp only [hs, if_true]
    exact ⟨⟨h.data, h.index⟩, trivial⟩
  exact ⟨this.1, this.2, C47_index_named this.1⟩

/-- **C47 (index, same file).** A vector survives if and only if its index has the name that the library
gives it. -/
theorem C47_index_vector {n : Text} (h : Named p n) (hs : p.isSet = false) : Survives p.copySame ↔ n = indexName p.name p.pid := by
  have hw : p.copySame.write = .ok (n, streamName (indexName p.name p.pid)) := by
    unfold Idx.copySame Idx.bare Idx.getName Idx.write
    simp only [hs, Bool.false_eq_true, if_false, h.data, Idx.getName]
  constructor
  · rintro ⟨q, hq, _⟩
    simp only [Idx.again, hw, Bind.bind, Except.bind, Idx.read, List.mem_singleton] at hq
    split at hq
    · exact streamName_inj ‹_›
    · cases hq
  · rintro rfl
    refine ⟨{ p.copySame with data := some (indexName p.name p.pid), index := some (indexName p.name p.pid) }, by simp only [Idx.again, hw, Bind.bind, Except.bind, Idx.read, List.mem_singleton, if_true], rfl⟩

/-- **C47 (empty, other file).** An empty set that is copied into another file cannot be written: it has no
index name. -/
theorem C47_empty_set_counterexample {n : Text} (h : Named p n) (hs : p.isSet = true) (hc : p.count = 0) (q : Nat) : (p.copyOther q).again = .error .typeError := by
  unfold Idx.copyOther Idx.bare Idx.again Idx.write
  rw [hc]
  simp only [Idx.appends, h.data, hs, if_true]
  rfl

/-- **C47 (empty, other file).** An empty vector survives if and only if its name was that of the library
with the pid of the other file: what is written first is the old name, and then the index with the new
one. -/
theorem C47_empty_vector {n : Text} (h : Named p n) (hs : p.isSet = false) (hc : p.count = 0) (q : Nat) : Survives (p.copyOther q) ↔ n = indexName p.name q := by
  have hw : (p.copyOther q).write = .ok (n, streamName (indexName p.name q)) := by
    unfold Idx.copyOther Idx.bare Idx.write
    rw [hc]
    simp only [Idx.appends, h.data, hs, Bool.false_eq_true, if_false, Idx.getName]
  constructor
  · rintro ⟨r, hr, _⟩
    simp only [Idx.again, hw, Bind.bind, Except.bind, Idx.read, List.mem_singleton] at hr
    split at hr
    · exact streamName_inj ‹_›
    · cases hr
  · rintro rfl
    refine ⟨{ p.copyOther q with data := some (indexName p.name q), index := some (indexName p.name q) }, by simp only [Idx.again, hw, Bind.bind, Except.bind, Idx.read, List.mem_singleton, if_true], rfl⟩

/-! Concrete properties: a vector named by this library, the same one emptied, and one that another
application has named. -/

def C47_vec (n : Text) (k : Nat) : Idx := ⟨false, ['S', 'l', 'o', 't', 's'], 0x8001, some n, some n, k⟩

example : Named (C47_vec (indexName ['S', 'l', 'o', 't', 's'] 0x8001) 2) ['S', 'l', 'o', 't', 's', '-', '8', '0', '0', '1'] ∧
    Survives (C47_vec (indexName ['S', 'l', 'o', 't', 's'] 0x8001) 2).copySame := by
  refine ⟨⟨by decide +kernel, by decide +kernel⟩, (C47_index_vector (n := indexName ['S', 'l', 'o', 't', 's'] 0x8001) ⟨rfl, rfl⟩ rfl).2 rfl⟩

example : (C47_vec (indexName ['S', 'l', 'o', 't', 's'] 0x8001) 2).copyOther 0x8003 = ⟨false, ['S', 'l', 'o', 't', 's'], 0x8003, some ['S', 'l', 'o', 't', 's', '-', '8', '0', '0', '3'], some ['S', 'l', 'o', 't', 's', '-', '8', '0', '0', '3'], 2⟩ := by decide +kernel

/-- Emptied, and copied into a file where the property has another pid. -/
theorem C47_empty_vector_counterexample : ∃ p n, Named p n ∧ n = indexName p.name p.pid ∧ ¬ Survives (p.copyOther 0x8003) :=
  ⟨C47_vec (indexName ['S', 'l', 'o', 't', 's'] 0x8001) 0, _, ⟨rfl, rfl⟩, rfl, fun h => absurd ((C47_empty_vector ⟨rfl, rfl⟩ rfl rfl 0x8003).1 h) (by decide +kernel)⟩

/-- Named by another application, and copied within the file. -/
theorem C47_foreign_vector_counterexample : ∃ p n, Named p n ∧ 0 < p.count ∧ ¬ Survives p.copySame :=
  ⟨C47_vec ['S', 'l', 'o', 't', 's'] 2, _, ⟨rfl, rfl⟩, by decide, fun h => absurd ((C47_index_vector ⟨rfl, rfl⟩ rfl).1 h) (by decide +kernel)⟩

end Verif.IndexName
