import Verif.Props.C48_Growing
import Verif.Props.C51_Foreign
/-!
# C52: what the program writes is a compound file

The bytes that `close` leaves are a compound file in the sense of `Verif.Spec.CompoundFile`, which stores
exactly what the history of calls has made: header, tables, chains, directory records, search trees and data
agree, no sector or mini sector has two uses, and no sector is lost.
-/
namespace Verif.Compound
open Verif.PathTree hiding Name
open Verif.Volume
open Verif.Rb (Name)

variable {up : Name → Name} {n : Nat}

/-- The content after closing: positions do not matter. -/
def closed (A : AVol) : AVol := { A with str := fun e => ((A.str e).1, 0) }

/-- **C52.** For every history on a new file, up to the first call that is not described (see
`C48_history_partial`): closing succeeds, and the bytes are a compound file that stores the result. -/
theorem C52_close_partial (up : Name → Name) (ss : Nat) (hss : ss = 512 ∨ ss = 4096) (f : Bytes) (cs : List VCall)
    (hp : ∀ c ∈ cs, Proper c) :
    ∃ v0, newVol ss f = .ok v0 ∧ ∃ a b os v A, Follows up v0 start cs a b os v A ∧
      ∃ g d, closeVol v = .ok g ∧ d.ss = ss ∧ Stores up g d (closed A) := by
  obtain ⟨v0, h1, V⟩ := newVol_ok up hss f
  obtain ⟨a, b, os, v, A, h2, V'⟩ := core cs V hp
  exact ⟨v0, h1, a, b, os, v, A, h2, close_stores V'⟩

/-- **C52.** The same when the file was made by another application. -/
theorem C52_edit_partial {g : Bytes} {d : Desc} {A : AVol} (S : Stores up g d A) (cs : List VCall) (hp : ∀ c ∈ cs, Proper c) :
    ∃ v0, openVol g = .ok v0 ∧ ∃ a b os v B, Follows up v0 A cs a b os v B ∧
      ∃ g' d', closeVol v = .ok g' ∧ d'.ss = d.ss ∧ Stores up g' d' (closed B) := by
  obtain ⟨v0, h1, V⟩ := open_vol S
  obtain ⟨a, b, os, v, B, h2, V'⟩ := core cs V hp
  exact ⟨v0, h1, a, b, os, v, B, h2, close_stores V'⟩

/-- **C52.** Opening a compound file and closing it leaves its content. -/
theorem C52_open_close {g : Bytes} {d : Desc} {A : AVol} (S : Stores up g d A) :
    ∃ v g' d', openVol g = .ok v ∧ closeVol v = .ok g' ∧ d'.ss = d.ss ∧ Stores up g' d' A := by
  obtain ⟨v, h1, V⟩ := open_vol S
  obtain ⟨g', d', h2, h3, T⟩ := close_stores V
  refine ⟨v, g', d', h1, h2, h3, ?_⟩
  have : (fun e => ((A.str e).1, 0)) = A.str := by
    funext e
    rw [S.str]
  rw [this] at T
  exact T

/-! ## Red-black trees -/

theorem col_red {recs : Nat → DirRec.Rec} {t : Sib} : (t.col recs).red = false ↔ BlackRoot recs t := by
  cases t with
  | nil => simp [Sib.col, Rb.T.red, BlackRoot]
  | node l i r => simp [Sib.col, Rb.T.red, BlackRoot]

theorem col_nr {recs : Nat → DirRec.Rec} : ∀ {t : Sib}, Rb.nr (t.col recs) ↔ NoTwoRed recs t
  | .nil => by simp [Sib.col, Rb.nr, NoTwoRed]
  | .node l i r => by
    simp only [Sib.col, Rb.nr, NoTwoRed, col_nr (t := l), col_nr (t := r), col_red]
    simp

theorem col_bal {recs : Nat → DirRec.Rec} : ∀ {t : Sib} {n : Nat}, Rb.bal (t.col recs) n ↔ Blacks recs t n
  | .nil, n => by simp [Sib.col, Rb.bal, Blacks]
  | .node l i r, n => by
    simp only [Sib.col, Rb.bal, Blacks, col_bal (t := l), col_bal (t := r)]
    refine exists_congr fun m => and_congr_left' ?_
    by_cases h : (recs i).color = 1 <;> simp [h]

theorem col_RB {recs : Nat → DirRec.Rec} {t : Sib} : Rb.RB (t.col recs) ↔ RedBlack recs t := by
  unfold Rb.RB
  rw [col_nr, col_red]
  simp only [col_bal]
  exact ⟨fun ⟨a, b, c⟩ => ⟨c, a, b⟩, fun ⟨c, a, b⟩ => ⟨a, b, c⟩⟩

/-- The trees in memory are red-black if and only if those of the file are. -/
theorem solid_open {g : Bytes} {d : Desc} {A : AVol} (S : Stores up g d A) :
    ∃ v, openVol g = .ok v ∧ VRel up d.ss v A ∧ (Solid v ↔ ∀ i, RedBlack d.recs (d.tree i)) := by
  obtain ⟨v, h1, V, R⟩ := open_tree S
  refine ⟨v, h1, V, (solid_iff R).trans ?_⟩
  unfold Tree.AllRB
  exact forall_congr' fun i => col_RB

theorem close_solid {v : Vol} {A : AVol} (V : VRel up n v A) (hs : Solid v) :
    ∃ g d, closeVol v = .ok g ∧ d.ss = n ∧ Stores up g d (closed A) ∧ ∀ i, RedBlack d.recs (d.tree i) := by
  obtain ⟨g, d, h1, h2, S⟩ := close_stores V
  obtain ⟨w, h3, _, h4⟩ := solid_open S
  obtain ⟨v', h5, _, h6⟩ := reopen_solid V
  refine ⟨g, d, h1, h2, S, h4.1 ?_⟩
  have : w = v' := by
    unfold closeVol at h1
    unfold openVol at h3
    simp only [vstep, reopen, h1, bind, Except.bind] at h5 h3
    split at h5
    · cases h5
    · rename_i h7
      split at h7
      · cases h7
      · rename_i hc
        rw [hc] at h3
        cases h7; cases h3; cases h5; rfl
  rw [this]
  exact h6 hs

/-- **C52.** A history without `remove`, `rmtree` and `move` on a new file, up to the first call that is `Bad` or needs
more than the format can number: the directory trees of the file that is written are red-black. -/
theorem C52_red_black (up : Name → Name) (ss : Nat) (hss : ss = 512 ∨ ss = 4096) (f : Bytes) (cs : List VCall)
    (hp : ∀ c ∈ cs, Proper c ∧ Keeping c) :
    ∃ v0, newVol ss f = .ok v0 ∧ ∃ a b os v A, Follows' up v0 start cs a b os v A ∧
      ∃ g d, closeVol v = .ok g ∧ d.ss = ss ∧ Stores up g d (closed A) ∧ ∀ i, RedBlack d.recs (d.tree i) := by
  obtain ⟨v0, h1, V⟩ := newVol_ok up hss f
  obtain ⟨a, b, os, v, A, h2, V', hs⟩ := core' cs V (newVol_solid hss h1) hp
  exact ⟨v0, h1, a, b, os, v, A, h2, close_solid V' hs⟩

/-- **C52.** The same on a file of another application, if its trees are red-black. -/
theorem C52_edit_red_black {g : Bytes} {d : Desc} {A : AVol} (S : Stores up g d A) (hr : ∀ i, RedBlack d.recs (d.tree i))
    (cs : List VCall) (hp : ∀ c ∈ cs, Proper c ∧ Keeping c) :
    ∃ v0, openVol g = .ok v0 ∧ ∃ a b os v B, Follows' up v0 A cs a b os v B ∧
      ∃ g' d', closeVol v = .ok g' ∧ d'.ss = d.ss ∧ Stores up g' d' (closed B) ∧ ∀ i, RedBlack d'.recs (d'.tree i) := by
  obtain ⟨v0, h1, V, h⟩ := solid_open S
  obtain ⟨a, b, os, v, B, h2, V', hs⟩ := core' cs V (h.2 hr) hp
  exact ⟨v0, h1, a, b, os, v, B, h2, close_solid V' hs⟩

/-- The hypotheses are met: by the histories `demo` and `growDemo`, and by a file with one stream. -/
theorem C52_witness : (∀ c ∈ demo, Proper c) ∧ (∀ c ∈ growDemo, Proper c ∧ Keeping c) ∧
    ∃ g d A, Stores Rb.upAscii g d A ∧ A.bytes [nA] = some [1, 2, 3] ∧ ∀ i, RedBlack d.recs (d.tree i) := by
  refine ⟨demo_proper, growDemo_ok, ?_⟩
  obtain ⟨v0, _, v1, A1, _, v, A, h0, V0, h1, V1, h2, V, hb⟩ := seed_run
  have s0 := newVol_solid (.inl rfl) h0
  obtain ⟨_, s1⟩ := vstep_solid V0 s0 seed_proper.1 seed_bad trivial h1
  obtain ⟨_, s2⟩ := vstep_solid V1 s1 seed_proper.2 (fun h => h) trivial h2
  obtain ⟨g, d, _, _, S, hr⟩ := close_solid V s2
  exact ⟨g, d, _, S, hb, hr⟩

end Verif.Compound
