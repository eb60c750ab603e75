import Verif.Model.DirTree
import Verif.Spec.PathTree
/-!
# The text of a path and its parts
-/
namespace Verif.Tree
open Verif.Rb (Name)
open Verif.PathTree (Path Plain text)

/-- The text of a path that is not the root. -/
theorem text_ne {p : Path} (h : p ≠ []) : text p = p.flatMap ('/' :: ·) := by simp [text, h]

theorem text_nil : text [] = ['/'] := rfl

theorem text_cons (n : Name) (r : Path) : text (n :: r) = '/' :: n ++ r.flatMap ('/' :: ·) := by
  simp [text]

theorem text_snoc (p : Path) (n : Name) :
    text (p ++ [n]) = (if p = [] then [] else text p) ++ '/' :: n := by
  rw [text_ne (by simp)]
  by_cases h : p = []
  · subst h; simp
  · simp [text_ne h, h]

theorem _root_.Verif.PathTree.Plain.tail {n : Name} {r : Path} (h : Plain (n :: r)) : Plain r := fun m hm => h m (by simp [hm])

theorem _root_.Verif.PathTree.Plain.left {p q : Path} (h : Plain (p ++ q)) : Plain p := fun m hm => h m (by simp [hm])

theorem _root_.Verif.PathTree.Plain.right {p q : Path} (h : Plain (p ++ q)) : Plain q := fun m hm => h m (by simp [hm])

theorem _root_.Verif.PathTree.Plain.prefix {p q : Path} (h : Plain q) (hp : p <+: q) : Plain p := by
  obtain ⟨t, rfl⟩ := hp; exact h.left

theorem text_eq_root {p : Path} (hp : Plain p) : text p = ['/'] ↔ p = [] := by
  constructor
  · intro h
    cases p with
    | nil => rfl
    | cons n r =>
      rw [text_cons] at h
      have := (hp n (by simp)).1
      cases n with
      | nil => exact absurd rfl this
      | cons c t => simp at h
  · rintro rfl; rfl

theorem lstrip_of {n : Name} (h : n.head? ≠ some '/') : lstrip n = n := by
  cases n with
  | nil => rfl
  | cons c r =>
    have : c ≠ '/' := fun e => h (by simp [e])
    simp [lstrip, this]

theorem plain_head {n : Name} (h : n ≠ [] ∧ '/' ∉ n) (r : Name) : (n ++ r).head? ≠ some '/' := by
  cases n with
  | nil => exact absurd rfl h.1
  | cons c t =>
    intro e
    simp at e
    exact h.2 (by simp [e])

theorem split_one {n : Name} (h : '/' ∉ n) : split n = [n] := by
  induction n with
  | nil => rfl
  | cons c r ih =>
    have hc : c ≠ '/' := fun e => h (by simp [e])
    rw [split, if_neg hc, ih (fun e => h (by simp [e]))]

theorem split_append {n : Name} (h : '/' ∉ n) (r : Name) : split (n ++ '/' :: r) = n :: split r := by
  induction n with
  | nil => simp [split]
  | cons c t ih =>
    have hc : c ≠ '/' := fun e => h (by simp [e])
    rw [List.cons_append, split, if_neg hc, ih (fun e => h (by simp [e]))]

theorem split_flat : ∀ (n : Name) (r : Path), '/' ∉ n → Plain r →
    split (n ++ r.flatMap ('/' :: ·)) = n :: r
  | n, [], h, _ => by simp [split_one h]
  | n, m :: r, h, hr => by
    rw [List.flatMap_cons, List.cons_append, split_append h, split_flat m r (hr m (by simp)).2 hr.tail]

/-- What `find` makes of the text. -/
theorem split_text {p : Path} (hp : Plain p) (h : p ≠ []) : split (lstrip (text p)) = p := by
  cases p with
  | nil => exact absurd rfl h
  | cons n r =>
    rw [text_cons, List.cons_append, lstrip, if_pos rfl, lstrip_of (plain_head (hp n (by simp)) _),
      split_flat n r (hp n (by simp)).2 hp.tail]

theorem flat_last {p : Path} (hp : Plain p) (h : p ≠ []) :
    (p.flatMap ('/' :: ·)).reverse.head? ≠ some '/' := by
  obtain ⟨q, n, rfl⟩ : ∃ q n, p = q ++ [n] := ⟨p.dropLast, p.getLast h, (List.dropLast_concat_getLast h).symm⟩
  have hn := hp n (by simp)
  simp only [List.flatMap_append, List.reverse_append, List.flatMap_cons, List.flatMap_nil, List.append_nil,
    List.reverse_cons, List.append_assoc]
  refine plain_head ⟨by simpa using hn.1, by simpa using hn.2⟩ _

theorem strip_text {p : Path} (hp : Plain p) (h : p ≠ []) : split (strip (text p)) = p := by
  have h1 : lstrip (text p) = (text p).drop 1 := by
    cases p with
    | nil => exact absurd rfl h
    | cons n r =>
      rw [text_cons, List.cons_append, lstrip, if_pos rfl, lstrip_of (plain_head (hp n (by simp)) _)]
      rfl
  have h2 : lstrip (lstrip (text p)).reverse = (lstrip (text p)).reverse := by
    rw [h1]
    apply lstrip_of
    have hl := flat_last hp h
    rw [text_ne h]
    cases hx : p.flatMap ('/' :: ·) with
    | nil => simp
    | cons c t =>
      rw [hx] at hl
      cases t with
      | nil => simp
      | cons c' t' =>
        simp only [List.drop_succ_cons, List.drop_zero]
        intro e
        apply hl
        rw [List.reverse_cons, List.head?_append, e]; rfl
  rw [strip, h2, List.reverse_reverse, split_text hp h]

theorem text_head (p : Path) : (text p).head? = some '/' := by
  cases p with
  | nil => rfl
  | cons n r => rw [text_cons]; rfl

theorem text_last {p : Path} (hp : Plain p) (h : p ≠ []) : (text p).getLast? ≠ some '/' := by
  rw [text_ne h, List.getLast?_eq_head?_reverse]
  exact flat_last hp h

theorem strip_root : split (strip ['/']) = [[]] := by decide

theorem cutLast_eq (a : Name) {n : Name} (h : '/' ∉ n) : cutLast (a ++ '/' :: n) = (a ++ ['/'], n) := by
  have : ((a ++ '/' :: n).reverse.takeWhile (· ≠ '/')).reverse = n := by
    rw [List.reverse_append, List.reverse_cons, List.append_assoc, List.takeWhile_append_of_pos]
    · simp
    · intro c hc
      have : c ≠ '/' := fun e => h (by rw [← e]; exact List.mem_reverse.1 hc)
      simpa using this
  simp only [cutLast, this, Prod.mk.injEq, and_true]
  simp only [List.length_append, List.length_cons]
  rw [show a.length + (n.length + 1) - n.length = a.length + 1 by omega, List.take_append,
    List.take_of_length_le (by omega)]
  simp

theorem basename_text {p : Path} {n : Name} (hp : Plain (p ++ [n])) : basename (text (p ++ [n])) = n := by
  rw [text_snoc, basename, cutLast_eq _ (hp n (by simp)).2]

theorem dirname_text {p : Path} {n : Name} (hp : Plain (p ++ [n])) : dirname (text (p ++ [n])) = text p := by
  rw [text_snoc, dirname, cutLast_eq _ (hp n (by simp)).2]
  simp only
  by_cases h : p = []
  · subst h; rfl
  · rw [if_neg h, if_neg, List.reverse_append]
    · simp only [List.reverse_cons, List.reverse_nil, List.nil_append, List.singleton_append]
      rw [lstrip, if_pos rfl, lstrip_of, List.reverse_reverse]
      rw [text_ne h]; exact flat_last hp.left h
    · intro hall
      rw [List.all_append, Bool.and_eq_true] at hall
      cases p with
      | nil => exact h rfl
      | cons m r =>
        have hm := hp m (by simp)
        rw [text_cons] at hall
        cases m with
        | nil => exact hm.1 rfl
        | cons c t =>
          have := hall.1
          simp at this
          exact hm.2 (by simp [this.1])

theorem join_flat : ∀ {p : Path}, p ≠ [] → '/' :: join p = p.flatMap ('/' :: ·)
  | [], h => absurd rfl h
  | [a], _ => by simp [join]
  | a :: b :: r, _ => by
    have := join_flat (p := b :: r) (by simp)
    rw [join, List.flatMap_cons, ← this]
    simp

theorem join_text (p : Path) : '/' :: join p = text p := by
  by_cases h : p = []
  · subst h; rfl
  · rw [join_flat h, text_ne h]

end Verif.Tree
