import Verif.Model.FileImage
import Verif.Lemmas.StreamIO
/-!
# Reading what was written
-/
namespace Verif.Fat
open Verif.Chain

/-- The file has the bytes `b` at `pos`. -/
def At (f : Bytes) (pos : Nat) (b : Bytes) : Prop := pread f pos b.length = b

theorem At.append {f : Bytes} {pos : Nat} {a b : Bytes} (h : At f pos (a ++ b)) :
    At f pos a ∧ At f (pos + a.length) b := by
  unfold At pread at *
  rw [List.length_append] at h
  constructor
  · have := congrArg (List.take a.length) h
    simpa [List.take_take] using this
  · have := congrArg (List.drop a.length) h
    simp only [List.drop_take, List.drop_drop, List.drop_append, List.drop_length, Nat.sub_self,
      List.drop_zero, List.nil_append] at this
    rw [show a.length + b.length - a.length = b.length by omega] at this
    simpa using this

theorem At.join {f : Bytes} {pos : Nat} {a b : Bytes} (h1 : At f pos a)
    (h2 : At f (pos + a.length) b) : At f pos (a ++ b) := by
  unfold At pread at *
  rw [List.length_append, List.take_add, h1, List.drop_drop, h2]

theorem At.readU {f : Bytes} {pos n v : Nat} (h : At f pos (leN n v)) (hv : v < 256 ^ n) :
    readU f pos n = .ok v := by
  unfold At at h
  rw [leN_length] at h
  simp only [Fat.readU, h, leN_length, if_true, unLe_leN_of_lt hv]

theorem packAll_ok {n : Nat} : ∀ {l : List Nat}, (∀ v ∈ l, v < 256 ^ n) →
    packAll n l = .ok (l.flatMap (leN n))
  | [], _ => rfl
  | v :: r, h => by
    have ih := packAll_ok (n := n) (l := r) (fun x hx => h x (by simp [hx]))
    simp [packAll, packLe, h v (by simp), ih, bind, Except.bind]

theorem flat_length {n : Nat} (l : List Nat) : (l.flatMap (leN n)).length = l.length * n := by
  induction l with
  | nil => simp
  | cons v r ih => simp [ih, Nat.add_mul, Nat.add_comm]

theorem At.table {f : Bytes} : ∀ {l : List Nat} {pos : Nat}, At f pos (l.flatMap (leN 4)) →
    (∀ v ∈ l, v < 256 ^ 4) → readTable f pos l.length = .ok l
  | [], _, _, _ => rfl
  | v :: r, pos, h, hv => by
    rw [List.flatMap_cons] at h
    obtain ⟨h1, h2⟩ := h.append
    rw [leN_length] at h2
    simp only [List.length_cons, readTable, h1.readU (hv v (by simp)),
      At.table h2 (fun x hx => hv x (by simp [hx])), bind, Except.bind]

theorem words_flat : ∀ {l : List Nat}, (∀ v ∈ l, v < 256 ^ 4) → words (l.flatMap (leN 4)) = l
  | [], _ => rfl
  | v :: r, h => by
    have hv := unLe_leN_of_lt (h v (by simp))
    have ih := words_flat (l := r) (fun x hx => h x (by simp [hx]))
    have e : ∀ x : Bytes, words (leN 4 v ++ x) = v :: words x := by
      intro x
      simp only [leN] at hv ⊢
      simp only [List.cons_append, List.nil_append, words, hv]
    rw [List.flatMap_cons, e, ih]

theorem pwrite_zero (f d : Bytes) : pwrite f 0 d = d ++ f.drop d.length := by
  simp [pwrite]

theorem at_pwrite_zero (f d : Bytes) : At (pwrite f 0 d) 0 d := by
  rw [pwrite_zero]; simp [At, pread]

theorem pwrite_length (f : Bytes) (pos : Nat) (d : Bytes) :
    (pwrite f pos d).length = max f.length (pos + d.length) := by
  simp [pwrite]; omega

/-- Within the file, reading is looking at the bytes. -/
theorem pread_eq {f : Bytes} {pos n : Nat} (h : pos + n ≤ f.length) :
    pread f pos n = rd f id pos n := by
  rw [← preadPad_eq]
  simp [preadPad, pread]; omega

theorem at_iff {f : Bytes} {pos : Nat} {b : Bytes} (h : pos + b.length ≤ f.length) :
    At f pos b ↔ rd f id pos b.length = b := by
  rw [At, pread_eq h]

end Verif.Fat
