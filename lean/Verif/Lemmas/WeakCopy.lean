import Verif.Spec.WeakCopy
/-!
# Lemmas about copies with weak references
-/
namespace Verif.WCopy
open Verif.Spec.WCopy

/-! ## Finding -/

theorem find_key {f : File} {p : Path} {k : Key} {d : Obj} (h : f.find p k = some d) : d.key = k := by
  have := List.find?_some h
  simpa using this

theorem find_coll {f : File} {p : Path} {k : Key} {d : Obj} (h : f.find p k = some d) : ∃ c, f.coll p = some c ∧ c.find? (fun d => d.key = k) = some d := by
  unfold File.find at h
  cases hc : f.coll p with
  | none => rw [hc] at h; simp at h
  | some c => rw [hc] at h; exact ⟨c, rfl, h⟩

theorem resolve_of {f : File} {p : Path} {i : Nat} {k : Key} {d : Obj} (ht : f.table[i]? = some p) (h : f.find p k = some d) : f.resolve i k = .ok d := by
  obtain ⟨c, hc, hf⟩ := find_coll h
  simp only [File.resolve, ht, hc, hf]

theorem of_resolve {f : File} {i : Nat} {k : Key} {d : Obj} (h : f.resolve i k = .ok d) : ∃ p, f.table[i]? = some p ∧ f.find p k = some d := by
  unfold File.resolve at h
  split at h
  · cases h
  · rename_i p hp
    split at h
    · cases h
    · rename_i c hc
      split at h
      · cases h
      · rename_i d' hd
        injection h with h
        subst h
        exact ⟨p, hp, by simp only [File.find, hc, Option.getD_some, hd]⟩

theorem any_find {c : List Obj} {k : Key} : (c.any fun d => d.key = k) = (c.find? fun d => d.key = k).isSome := by
  rw [Bool.eq_iff_iff]; simp [List.any_eq_true, List.find?_isSome]

/-! ## Adding -/

theorem putColl_lookup (p : Path) (c : List Obj) (l : List (Path × List Obj)) (q : Path) : (putColl p c l).lookup q = if q = p then some c else l.lookup q := by
  induction l with
  | nil =>
    simp only [putColl, List.lookup_cons, List.lookup_nil]
    by_cases h : q = p
    · subst h; simp
    · have : (q == p) = false := by simpa using h
      simp [this, h]
  | cons e r ih =>
    simp only [putColl]
    by_cases he : e.1 = p
    · simp only [he, if_true, List.lookup_cons]
      by_cases h : q = p
      · subst h; simp
      · have : (q == p) = false := by simpa using h
        simp only [this, h, if_false]
        obtain ⟨a, b⟩ := e
        simp only at he
        subst he
        simp only [List.lookup_cons, this]
    · simp only [he, if_false]
      obtain ⟨a, b⟩ := e
      simp only at he
      simp only [List.lookup_cons]
      by_cases h : q = a
      · subst h
        simp [he]
      · have : (q == a) = false := by simpa using h
        simp only [this, ih]

theorem coll_add (f : File) (p : Path) (d : Obj) (q : Path) : (f.add p d).coll q = if q = p then some (putIn ((f.coll p).getD []) d) else f.coll q := by
  simp only [File.coll, File.add, putColl_lookup]

theorem find_map_put (c : List Obj) (d : Obj) (k : Key) (h : k = d.key → (c.any fun x => x.key = d.key) = true) :
    (c.map fun x => if x.key = d.key then d else x).find? (fun x => x.key = k) = if k = d.key then some d else c.find? fun x => x.key = k := by
  induction c with
  | nil =>
    simp only [List.map_nil, List.find?_nil]
    by_cases hk : k = d.key
    · have := h hk; simp at this
    · simp [hk]
  | cons x c ih =>
    simp only [List.map_cons, List.find?_cons]
    by_cases hx : x.key = d.key
    · simp only [hx, if_true]
      by_cases hk : k = d.key
      · simp [hk]
      · have : ¬ d.key = k := fun e => hk e.symm
        simp only [this, decide_false, hk, if_false]
        rw [ih (fun e => absurd e hk), if_neg hk]
    · simp only [hx, if_false]
      by_cases hxk : x.key = k
      · have hk : ¬ k = d.key := by rw [← hxk]; exact hx
        simp [hxk, hk]
      · simp only [hxk, decide_false]
        rw [ih]
        intro hk
        have := h hk
        simpa [hx] using this

theorem find_putIn (c : List Obj) (d : Obj) (k : Key) : (putIn c d).find? (fun x => x.key = k) = if k = d.key then some d else c.find? fun x => x.key = k := by
  unfold putIn
  split
  · rename_i h
    exact find_map_put c d k (fun _ => h)
  · rename_i h
    rw [List.find?_append]
    by_cases hk : k = d.key
    · subst hk
      have : c.find? (fun x => decide (x.key = d.key)) = none := by
        simp only [any_find] at h
        cases hc : c.find? (fun x => decide (x.key = d.key)) with
        | none => rfl
        | some y => rw [hc] at h; simp at h
      simp [this]
    · have : ¬ d.key = k := fun e => hk e.symm
      simp [hk, this]

theorem find_add (f : File) (p : Path) (d : Obj) (q : Path) (k : Key) : (f.add p d).find q k = if q = p ∧ k = d.key then some d else f.find q k := by
  unfold File.find
  rw [coll_add]
  by_cases hq : q = p
  · subst hq
    simp only [if_true, Option.getD_some, find_putIn, true_and]
  · simp only [hq, if_false, false_and]

/-! ## What stays -/

/-- All keys that were found are found, and the table has only grown. -/
structure Stay (f f' : File) : Prop where
  found : ∀ p k, (f.find p k).isSome → (f'.find p k).isSome
  table : ∃ t, f'.table = f.table ++ t

theorem _root_.Verif.Spec.WCopy.Kept.stay {f f' : File} (h : Kept f f') : Stay f f' := by
  refine ⟨fun p k hs => ?_, h.table⟩
  obtain ⟨d, hd⟩ := Option.isSome_iff_exists.1 hs
  rw [h.found p k d hd]; rfl

theorem _root_.Verif.Spec.WCopy.Kept.refl (f : File) : Kept f f := ⟨fun _ _ _ h => h, fun _ h => h, [], by simp⟩

theorem _root_.Verif.Spec.WCopy.Kept.trans {f g h : File} (a : Kept f g) (b : Kept g h) : Kept f h := by
  obtain ⟨s, hs⟩ := a.table
  obtain ⟨t, ht⟩ := b.table
  exact ⟨fun p k d hd => b.found p k d (a.found p k d hd), fun p hp => b.colls p (a.colls p hp), s ++ t, by rw [ht, hs, List.append_assoc]⟩

theorem Stay.trans {f g h : File} (a : Stay f g) (b : Stay g h) : Stay f h := by
  obtain ⟨s, hs⟩ := a.table
  obtain ⟨t, ht⟩ := b.table
  exact ⟨fun p k hd => b.found p k (a.found p k hd), s ++ t, by rw [ht, hs, List.append_assoc]⟩

theorem stay_index {f f' : File} (h : Stay f f') {i : Nat} {p : Path} (hi : f.table[i]? = some p) : f'.table[i]? = some p := by
  obtain ⟨t, ht⟩ := h.table
  rw [ht, List.getElem?_append_left]
  · exact hi
  · rw [List.getElem?_eq_some_iff] at hi
    exact hi.1

theorem reads_mk {f : File} {p : Path} {i : Nat} {k : Key} (hi : f.table[i]? = some p) (hk : (f.find p k).isSome) : Reads f p i k := by
  obtain ⟨d, hd⟩ := Option.isSome_iff_exists.1 hk
  exact ⟨d, resolve_of hi hd, hd, find_key hd⟩

/-- With the place of the path in the table. -/
def Reads' (f : File) (p : Path) (i : Nat) (k : Key) : Prop := f.table[i]? = some p ∧ (f.find p k).isSome

theorem Reads'.reads {f : File} {p : Path} {i : Nat} {k : Key} (h : Reads' f p i k) : Reads f p i k := reads_mk h.1 h.2

theorem Reads'.mono {f f' : File} {p : Path} {i : Nat} {k : Key} (s : Stay f f') (h : Reads' f p i k) : Reads' f' p i k := ⟨stay_index s h.1, s.found _ _ h.2⟩

def LikeVal' (f : File) (p : Path) : Val → Val → Prop
  | .data b, .data b' => b' = b
  | .weak _ _ k, .weak i' _ k' => k' = k ∧ Reads' f p i' k
  | .weaks _ ks, .weaks w ks' => ks' = ks ∧ (ks ≠ [] → ∃ i q, w = some (i, q) ∧ ∀ k ∈ ks, Reads' f p i k)
  | _, _ => False

def Like' (D : Defs) (f : File) (a b : Item) : Prop := b.place = a.place ∧ b.cls = a.cls ∧ b.pid = a.pid ∧ LikeVal' f (D.path a.cls a.pid) a.val b.val

theorem LikeVal'.mono {f f' : File} {p : Path} {a b : Val} (s : Stay f f') (h : LikeVal' f p a b) : LikeVal' f' p a b := by
  cases a <;> cases b <;> simp only [LikeVal'] at h ⊢
  · exact h
  · exact ⟨h.1, h.2.mono s⟩
  · refine ⟨h.1, fun hn => ?_⟩
    obtain ⟨i, q, hw, hk⟩ := h.2 hn
    exact ⟨i, q, hw, fun k hm => (hk k hm).mono s⟩

theorem LikeVal'.like {f : File} {p : Path} {a b : Val} (h : LikeVal' f p a b) : LikeVal f p a b := by
  cases a <;> cases b <;> simp only [LikeVal', LikeVal] at h ⊢
  · exact h
  · exact ⟨h.1, h.2.reads⟩
  · refine ⟨h.1, fun hn => ?_⟩
    obtain ⟨i, q, hw, hk⟩ := h.2 hn
    exact ⟨i, q, hw, fun k hm => (hk k hm).reads⟩

theorem All.mono {R S : Item → Item → Prop} (h : ∀ a b, R a b → S a b) {l m : List Item} (a : All R l m) : All S l m := by
  induction a with
  | nil => exact .nil
  | cons hr _ ih => exact .cons (h _ _ hr) ih

def Copy' (D : Defs) (f : File) (v c : Obj) : Prop := c.cls = v.cls ∧ c.key = v.key ∧ All (Like' D f) v.items c.items

theorem Copy'.mono {D : Defs} {f f' : File} {v c : Obj} (s : Stay f f') (h : Copy' D f v c) : Copy' D f' v c :=
  ⟨h.1, h.2.1, All.mono (fun _ _ x => ⟨x.1, x.2.1, x.2.2.1, x.2.2.2.mono s⟩) h.2.2⟩

theorem Copy'.copy {D : Defs} {f : File} {v c : Obj} (h : Copy' D f v c) : Copy D f v c :=
  ⟨h.1, h.2.1, All.mono (fun _ _ x => ⟨x.1, x.2.1, x.2.2.1, x.2.2.2.like⟩) h.2.2⟩

def From' (D : Defs) (src f : File) (p : Path) (d : Obj) : Prop := ∃ v, src.find p d.key = some v ∧ (p = typesPath ∧ d = v ∨ Copy' D f v d)

theorem From'.mono {D : Defs} {src f f' : File} {p : Path} {d : Obj} (s : Stay f f') (h : From' D src f p d) : From' D src f' p d := by
  obtain ⟨v, hv, h⟩ := h
  exact ⟨v, hv, h.imp id (fun c => c.mono s)⟩

theorem From'.from {D : Defs} {src f : File} {p : Path} {d : Obj} (h : From' D src f p d) : From D src f p d := by
  obtain ⟨v, hv, h⟩ := h
  exact ⟨v, hv, h.imp id (fun c => c.copy)⟩

def New' (D : Defs) (src f f' : File) : Prop := ∀ p k d, f'.find p k = some d → f.find p k = some d ∨ From' D src f' p d

theorem New'.refl (D : Defs) (src f : File) : New' D src f f := fun _ _ _ h => .inl h

theorem New'.trans {D : Defs} {src f g h : File} (s : Stay g h) (a : New' D src f g) (b : New' D src g h) : New' D src f h := by
  intro p k d hd
  rcases b p k d hd with x | x
  · rcases a p k d x with y | y
    · exact .inl y
    · exact .inr (y.mono s)
  · exact .inr x

theorem New'.new {D : Defs} {src f f' : File} (h : New' D src f f') : New D src f f' := fun p k d hd => (h p k d hd).imp id From'.from

/-! ## Computations -/

/-- What a computation does to the file, and what holds of its result. -/
structure Post (D : Defs) (src : File) {α : Type} (f : File) (r : Res α × File) (Q : α → File → Prop) : Prop where
  kept : Kept f r.2
  new : New' D src f r.2
  ok : ∀ a, r.1 = .ok a → Q a r.2

variable {D : Defs} {src : File}

theorem Post.pure {α : Type} {f : File} {a : α} {Q : α → File → Prop} (h : Q a f) : Post D src f ((pure a : FM α) f) Q :=
  ⟨Kept.refl f, New'.refl D src f, fun _ e => by cases e; exact h⟩

theorem Post.raise {α : Type} {f : File} {e : Err} {Q : α → File → Prop} : Post D src f ((raise e : FM α) f) Q :=
  ⟨Kept.refl f, New'.refl D src f, fun _ h => by cases h⟩

theorem Post.bind {α β : Type} {f : File} {m : FM α} {g : α → FM β} {Q : α → File → Prop} {R : β → File → Prop} (hm : Post D src f (m f) Q)
    (hg : ∀ a f', Kept f f' → Q a f' → Post D src f' (g a f') R) : Post D src f ((m >>= g) f) R := by
  have e : (m >>= g) f = FM.bind m g f := rfl
  rw [e]
  unfold FM.bind
  rcases hr : m f with ⟨r, f'⟩
  rw [hr] at hm
  cases r with
  | error e => exact ⟨hm.kept, hm.new, fun _ h => by cases h⟩
  | ok a =>
    have := hg a f' hm.kept (hm.ok a rfl)
    exact ⟨hm.kept.trans this.kept, hm.new.trans this.kept.stay this.new, this.ok⟩

theorem Post.imp {α : Type} {f : File} {r : Res α × File} {Q R : α → File → Prop} (h : Post D src f r Q) (hi : ∀ a, Q a r.2 → R a r.2) : Post D src f r R :=
  ⟨h.kept, h.new, fun a e => hi a (h.ok a e)⟩

theorem indexOf_get {t : List Path} {p : Path} (h : p ∈ t) : t[PropStream.indexOf t p]? = some p := by
  induction t with
  | nil => cases h
  | cons q t ih =>
    unfold PropStream.indexOf
    by_cases hq : q = p
    · simp [hq]
    · rw [if_neg hq]
      have : p ∈ t := by
        rcases List.mem_cons.1 h with e | e
        · exact absurd e.symm hq
        · exact e
      simpa using ih this

theorem post_index (f : File) (p : Path) : Post D src f (indexFor p f) fun i f' => f'.table[i]? = some p ∧ f'.colls = f.colls := by
  refine ⟨⟨fun q k d h => h, fun q h => h, ?_⟩, fun q k d h => .inl h, ?_⟩
  · simp only [indexFor, PropStream.weakrefIndex]
    split
    · exact ⟨[], by simp⟩
    · exact ⟨[p], rfl⟩
  · intro a ha
    simp only [indexFor] at ha ⊢
    injection ha with ha
    subst ha
    refine ⟨?_, trivial⟩
    unfold PropStream.weakrefIndex
    split
    · rename_i h
      exact indexOf_get h
    · simp

theorem post_target (f : File) (p : Path) : Post D src f (target p f) fun c f' => f' = f ∧ f.coll p = some c := by
  unfold target
  split
  · exact ⟨Kept.refl f, New'.refl D src f, fun _ h => by cases h⟩
  · rename_i c hc
    exact ⟨Kept.refl f, New'.refl D src f, fun _ h => by cases h; exact ⟨rfl, hc⟩⟩

theorem post_item (f : File) (p : Path) (k : Key) : Post D src f (itemAt p k f) fun d f' => f' = f ∧ f.find p k = some d := by
  unfold itemAt
  split
  · exact ⟨Kept.refl f, New'.refl D src f, fun _ h => by cases h⟩
  · rename_i c hc
    exact ⟨Kept.refl f, New'.refl D src f, fun _ h => by cases h; exact ⟨rfl, hc⟩⟩

theorem post_lift {α : Type} (f : File) (r : Res α) : Post D src f (lift r f) fun a f' => f' = f ∧ r = .ok a := by
  cases r with
  | error e => exact ⟨Kept.refl f, New'.refl D src f, fun _ h => by cases h⟩
  | ok a => exact ⟨Kept.refl f, New'.refl D src f, fun _ h => by cases h; exact ⟨rfl, rfl⟩⟩

/-- Adding to a collection. -/
theorem stay_add (f : File) (p : Path) (d : Obj) : Stay f (f.add p d) := by
  refine ⟨fun q k h => ?_, [], by simp [File.add]⟩
  rw [find_add]
  split
  · rfl
  · exact h

/-- Adding what was not there when the copy began. -/
theorem post_append {f g : File} {p : Path} {d : Obj} (hk : Kept f g) (hn : New' D src f g) (h0 : f.find p d.key = none) (hd : From' D src g p d) :
    Post D src f (append p d g) fun _ f' => (f'.find p d.key).isSome := by
  have hs := stay_add g p d
  refine ⟨⟨fun q k x hx => ?_, fun q hq => ?_, ?_⟩, ?_, ?_⟩
  · show (g.add p d).find q k = some x
    rw [find_add]
    split
    · rename_i h
      obtain ⟨h1, h2⟩ := h
      subst h1; subst h2
      rw [h0] at hx; cases hx
    · exact hk.found q k x hx
  · show ((g.add p d).coll q).isSome
    rw [coll_add]
    split
    · rfl
    · exact hk.colls q hq
  · exact hk.table
  · intro q k x hx
    have hx : (g.add p d).find q k = some x := hx
    rw [find_add] at hx
    split at hx
    · rename_i h
      injection hx with hx
      subst hx
      rw [h.1]
      exact .inr (hd.mono hs)
    · rcases hn q k x hx with y | y
      · exact .inl y
      · exact .inr (y.mono hs)
  · intro _ _
    show ((g.add p d).find p d.key).isSome
    rw [find_add]; simp

/-- Copying an object: what is needed of it below. -/
def Good (D : Defs) (src : File) (go : Obj → FM Obj) : Prop := ∀ v f, (∀ it ∈ v.items, SoundItem D src it) → Post D src f (go v f) fun c f' => Copy' D f' v c

theorem post_bring {go : Obj → FM Obj} (hs : Sound D src) (hg : Good D src go) {f : File} {p : Path} {i : Nat} {k : Key} (hi : src.table[i]? = some p) (h0 : f.find p k = none) :
    Post D src f (bring src go p i k f) fun _ f' => (f'.find p k).isSome := by
  unfold bring
  refine Post.bind (post_lift f _) fun v f' _ ⟨e, hv⟩ => ?_
  subst e
  obtain ⟨q, hq, hf⟩ := of_resolve hv
  rw [hi] at hq
  injection hq with hq
  subst hq
  have hkey := find_key hf
  split
  · rename_i ht
    have := post_append (D := D) (src := src) (d := v) (Kept.refl f') (New'.refl D src f') (by rw [hkey]; exact h0) ⟨v, by rw [hkey]; exact hf, .inl ⟨ht, rfl⟩⟩
    rw [hkey] at this
    exact this
  · have hc := hg v f' (hs _ _ _ hf)
    have e : ∀ m : FM Unit, m = (go v >>= fun c => append p c) → Post D src f' (m f') fun _ f' => (f'.find p k).isSome := by
      intro m hm
      rw [hm]
      have e : (go v >>= fun c => append p c) f' = FM.bind (go v) (fun c => append p c) f' := rfl
      rw [e]
      unfold FM.bind
      rcases hr : go v f' with ⟨r, g⟩
      rw [hr] at hc
      cases r with
      | error e => exact ⟨hc.kept, hc.new, fun _ h => by cases h⟩
      | ok c =>
        have hcc := hc.ok c rfl
        have hck : c.key = k := by rw [hcc.2.1, hkey]
        have := post_append (D := D) (src := src) (d := c) hc.kept hc.new (by rw [hck]; exact h0) ⟨v, by rw [hck]; exact hf, .inr hcc⟩
        rw [hck] at this
        exact this
    exact e _ rfl

theorem any_true_find {f : File} {p : Path} {c : List Obj} {k : Key} (hc : f.coll p = some c) : (c.any fun d => d.key = k) = (f.find p k).isSome := by
  rw [any_find]; simp only [File.find, hc, Option.getD_some]

theorem post_need {go : Obj → FM Obj} (hs : Sound D src) (hg : Good D src go) {f : File} {p : Path} {i : Nat} {k : Key} {c : List Obj} (hi : src.table[i]? = some p) (hc : f.coll p = some c) :
    Post D src f (need src go p i k c f) fun _ f' => (f'.find p k).isSome := by
  unfold need
  have := any_true_find (k := k) hc
  split
  · rename_i h
    rw [this] at h
    exact Post.pure h
  · rename_i h
    rw [this] at h
    refine post_bring hs hg hi ?_
    cases hf : f.find p k with
    | none => rfl
    | some d => rw [hf] at h; simp at h

theorem post_refs (p : Path) (ks : List Key) (f : File) : Post D src f (copyRefs p ks f) fun l f' => f' = f ∧ l = ks ∧ ∀ k ∈ ks, (f.find p k).isSome := by
  induction ks with
  | nil => exact Post.pure ⟨rfl, rfl, fun _ h => by cases h⟩
  | cons k r ih =>
    unfold copyRefs
    refine Post.bind (post_target f p) fun c f' _ ⟨e, hc⟩ => ?_
    subst e
    split
    · rename_i h
      rw [any_true_find hc] at h
      refine Post.bind (post_item f' p k) fun d f'' _ ⟨e, hd⟩ => ?_
      subst e
      refine Post.bind ih fun l f3 _ ⟨e, hl, hk⟩ => ?_
      subst e
      refine Post.pure ⟨rfl, by rw [hl, find_key hd], fun x hx => ?_⟩
      rcases List.mem_cons.1 hx with e | e
      · rw [e]; exact h
      · exact hk x e
    · exact Post.raise

theorem post_copyItem {go : Obj → FM Obj} (hs : Sound D src) (hg : Good D src go) (it : Item) (hi : SoundItem D src it) (f : File) :
    Post D src f (copyItem D src go it f) fun x f' => Like' D f' it x := by
  obtain ⟨pl, cls, pid, v⟩ := it
  cases v with
  | data b => exact Post.pure ⟨rfl, rfl, rfl, rfl⟩
  | weak i q k =>
    simp only [SoundItem] at hi
    show Post D src f (copyWeak D src go ⟨pl, cls, pid, .weak i q k⟩ i k f) _
    unfold copyWeak
    refine Post.bind (post_index f _) fun index f1 _ ⟨h1, _⟩ => ?_
    refine Post.bind (post_target f1 _) fun c f2 _ ⟨e, hc⟩ => ?_
    subst e
    refine Post.bind (post_need hs hg hi hc) fun _ f3 k3 h3 => ?_
    refine Post.bind (post_item f3 _ _) fun d f4 _ ⟨e, hd⟩ => ?_
    subst e
    exact Post.pure ⟨rfl, rfl, rfl, find_key hd, stay_index k3.stay h1, h3⟩
  | weaks w ks =>
    show Post D src f (copyWeaks D ⟨pl, cls, pid, .weaks w ks⟩ ks f) _
    unfold copyWeaks
    refine Post.bind (post_index f _) fun index f1 _ ⟨h1, _⟩ => ?_
    refine Post.bind (post_target f1 _) fun c f2 _ ⟨e, hc⟩ => ?_
    subst e
    refine Post.bind (post_refs _ ks f2) fun l f3 k3 ⟨e, hl, hk⟩ => ?_
    subst e
    refine Post.pure ⟨rfl, rfl, rfl, hl, fun hn => ⟨index, D.keyPid cls pid, by rw [if_neg hn], fun k hm => ⟨h1, hk k hm⟩⟩⟩

theorem post_copyItems {go : Obj → FM Obj} (hs : Sound D src) (hg : Good D src go) (l : List Item) : ∀ f, (∀ it ∈ l, SoundItem D src it) →
    Post D src f (copyItems D src go l f) fun m f' => All (Like' D f') l m := by
  induction l with
  | nil => intro f _; exact Post.pure .nil
  | cons it r ih =>
    intro f hi
    unfold copyItems
    refine Post.bind (post_copyItem hs hg it (hi it (by simp)) f) fun x f1 _ h1 => ?_
    refine Post.bind (ih f1 fun x hx => hi x (by simp [hx])) fun m f2 k2 h2 => ?_
    exact Post.pure (.cons ⟨h1.1, h1.2.1, h1.2.2.1, h1.2.2.2.mono k2.stay⟩ h2)

theorem post_copyObj (hs : Sound D src) : ∀ n, Good D src (copyObj D src n) := by
  intro n
  induction n with
  | zero => intro v f _; exact Post.raise
  | succ n ih =>
    intro v f hi
    unfold copyObj
    refine Post.bind (post_copyItems hs ih v.items f hi) fun m f1 _ h1 => ?_
    exact Post.pure ⟨rfl, rfl, h1⟩

/-! ## When nothing is raised -/

theorem bind_ok {α β : Type} {m : FM α} {g : α → FM β} {f f' : File} {a : α} (h : m f = (.ok a, f')) : (m >>= g) f = g a f' := by
  show FM.bind m g f = _
  unfold FM.bind
  rw [h]

theorem readyItem_kept {f f' : File} {it : Item} (k : Kept f f') (h : ReadyItem D src f it) : ReadyItem D src f' it := by
  obtain ⟨pl, cls, pid, v⟩ := it
  cases v with
  | data b => exact h
  | weak i q x => exact ⟨k.colls _ h.1, h.2.imp (k.stay.found _ _) id⟩
  | weaks w ks => exact ⟨k.colls _ h.1, fun x hx => k.stay.found _ _ (h.2 x hx)⟩

theorem coll_index (f : File) (p q : Path) : (indexFor p f).2.coll q = f.coll q := rfl

theorem find_index (f : File) (p q : Path) (k : Key) : (indexFor p f).2.find q k = f.find q k := rfl

theorem need_ok {go : Obj → FM Obj} {f : File} {p : Path} {i : Nat} {k : Key} {c : List Obj} (hc : f.coll p = some c) (hi : src.table[i]? = some p)
    (h : (f.find p k).isSome ∨ p = typesPath ∧ (src.find typesPath k).isSome) : ∃ f', need src go p i k c f = (.ok (), f') ∧ (f'.find p k).isSome := by
  unfold need
  have ha := any_true_find (k := k) hc
  cases hf : (f.find p k).isSome with
  | true =>
    rw [if_pos (by rw [ha, hf])]
    exact ⟨f, rfl, hf⟩
  | false =>
    rw [hf] at h ha
    rw [if_neg (by rw [ha]; simp)]
    rcases h with h | ⟨ht, hs⟩
    · cases h
    · obtain ⟨d, hd⟩ := Option.isSome_iff_exists.1 hs
      rw [← ht] at hd
      refine ⟨f.add p d, ?_, ?_⟩
      · unfold bring
        rw [bind_ok (a := d) (f' := f) (by rw [resolve_of hi hd]; rfl), if_pos ht]
        rfl
      · rw [find_add, find_key hd]; simp

theorem copyRefs_ok {f : File} {p : Path} {c : List Obj} (hc : f.coll p = some c) (ks : List Key) (h : ∀ k ∈ ks, (f.find p k).isSome) : copyRefs p ks f = (.ok ks, f) := by
  induction ks with
  | nil => rfl
  | cons k r ih =>
    have hk := h k (by simp)
    obtain ⟨d, hd⟩ := Option.isSome_iff_exists.1 hk
    unfold copyRefs
    rw [bind_ok (a := c) (f' := f) (by simp only [target, hc]), if_pos (by rw [any_true_find hc]; exact hk),
      bind_ok (a := d) (f' := f) (by simp only [itemAt, hd]), bind_ok (ih fun x hx => h x (by simp [hx])), find_key hd]
    rfl

theorem copyItem_ok {go : Obj → FM Obj} {it : Item} {f : File} (hi : SoundItem D src it) (h : ReadyItem D src f it) : ∃ x f', copyItem D src go it f = (.ok x, f') := by
  obtain ⟨pl, cls, pid, v⟩ := it
  cases v with
  | data b => exact ⟨_, _, rfl⟩
  | weak i q k =>
    simp only [SoundItem] at hi
    obtain ⟨hc, h⟩ := h
    obtain ⟨c, hc⟩ := Option.isSome_iff_exists.1 hc
    rcases hx : indexFor (D.path cls pid) f with ⟨r, f1⟩
    have hf1 : f1 = (indexFor (D.path cls pid) f).2 := by rw [hx]
    have hr : r = .ok (PropStream.weakrefIndex f.table (D.path cls pid)).2 := by
      have := congrArg Prod.fst hx
      exact this.symm
    rw [hr] at hx
    have hc1 : f1.coll (D.path cls pid) = some c := by rw [hf1]; exact hc
    obtain ⟨f2, h2, hk⟩ := need_ok (src := src) (go := go) (k := k) hc1 hi (by rw [hf1]; exact h)
    obtain ⟨d, hd⟩ := Option.isSome_iff_exists.1 hk
    show ∃ x f', copyWeak D src go ⟨pl, cls, pid, .weak i q k⟩ i k f = (.ok x, f')
    unfold copyWeak
    rw [bind_ok hx, bind_ok (a := c) (f' := f1) (by simp only [target, hc1]), bind_ok h2, bind_ok (a := d) (f' := f2) (by simp only [itemAt, hd])]
    exact ⟨_, _, rfl⟩
  | weaks w ks =>
    obtain ⟨hc, h⟩ := h
    obtain ⟨c, hc⟩ := Option.isSome_iff_exists.1 hc
    rcases hx : indexFor (D.path cls pid) f with ⟨r, f1⟩
    have hf1 : f1 = (indexFor (D.path cls pid) f).2 := by rw [hx]
    have hr : r = .ok (PropStream.weakrefIndex f.table (D.path cls pid)).2 := by
      have := congrArg Prod.fst hx
      exact this.symm
    rw [hr] at hx
    have hc1 : f1.coll (D.path cls pid) = some c := by rw [hf1]; exact hc
    show ∃ x f', copyWeaks D ⟨pl, cls, pid, .weaks w ks⟩ ks f = (.ok x, f')
    unfold copyWeaks
    rw [bind_ok hx, bind_ok (a := c) (f' := f1) (by simp only [target, hc1]), bind_ok (copyRefs_ok hc1 ks (by rw [hf1]; exact h))]
    exact ⟨_, _, rfl⟩

theorem copyItems_ok {go : Obj → FM Obj} (hs : Sound D src) (hg : Good D src go) (l : List Item) : ∀ f, (∀ it ∈ l, SoundItem D src it) → (∀ it ∈ l, ReadyItem D src f it) →
    ∃ m f', copyItems D src go l f = (.ok m, f') := by
  induction l with
  | nil => intro f _ _; exact ⟨_, _, rfl⟩
  | cons it r ih =>
    intro f hi h
    obtain ⟨x, f1, h1⟩ := copyItem_ok (go := go) (hi it (by simp)) (h it (by simp))
    have hk := (post_copyItem hs hg it (hi it (by simp)) f).kept
    rw [h1] at hk
    obtain ⟨m, f2, h2⟩ := ih f1 (fun y hy => hi y (by simp [hy])) fun y hy => readyItem_kept hk (h y (by simp [hy]))
    unfold copyItems
    rw [bind_ok h1, bind_ok h2]
    exact ⟨_, _, rfl⟩

theorem copyObj_ok (hs : Sound D src) (n : Nat) {v : Obj} {f : File} (hi : ∀ it ∈ v.items, SoundItem D src it) (h : ∀ it ∈ v.items, ReadyItem D src f it) :
    ∃ c f', copyObj D src (n + 1) v f = (.ok c, f') := by
  obtain ⟨m, f', hm⟩ := copyItems_ok hs (post_copyObj hs n) v.items f hi h
  unfold copyObj
  rw [bind_ok hm]
  exact ⟨_, _, rfl⟩

/-! ## `update` -/

theorem post_param (op : Obj) (k : Key) (f : File) : Post D src f (checkParam op k f) fun _ f' => f' = f ∧ k ∈ op.params.2 := by
  unfold checkParam
  split
  · exact ⟨Kept.refl f, New'.refl D src f, fun _ h => by cases h⟩
  · split
    · rename_i h
      exact ⟨Kept.refl f, New'.refl D src f, fun _ _ => ⟨rfl, h⟩⟩
    · exact ⟨Kept.refl f, New'.refl D src f, fun _ h => by cases h⟩

theorem post_params (op : Obj) (i : Nat) (ks : List Key) (f : File) : Post D src f (checkParams src op i ks f) fun _ f' => f' = f ∧ ∀ k ∈ ks, k ∈ op.params.2 := by
  induction ks with
  | nil => exact Post.pure ⟨rfl, fun _ h => by cases h⟩
  | cons k r ih =>
    unfold checkParams
    refine Post.bind (post_lift f _) fun d f' _ ⟨e, hd⟩ => ?_
    subst e
    obtain ⟨p, _, hf⟩ := of_resolve hd
    have hk := find_key hf
    refine Post.bind (post_param op _ f') fun _ f2 _ ⟨e, h⟩ => ?_
    subst e
    refine ih.imp fun _ ⟨e, hr⟩ => ⟨e, fun x hx => ?_⟩
    rcases List.mem_cons.1 hx with e | e
    · rw [e, ← hk]; exact h
    · exact hr x e

theorem post_one (hs : Sound D src) (n : Nat) (p : Path) (d : Obj) (hd : src.find p d.key = some d) (f : File) :
    Post D src f (updateOne D src n p d f) fun _ f' => (f'.find p d.key).isSome := by
  unfold updateOne
  split
  · rename_i h0
    have hc := post_copyObj hs n d f (hs _ _ _ hd)
    have e : (copyObj D src n d >>= fun c => append p c) f = FM.bind (copyObj D src n d) (fun c => append p c) f := rfl
    rw [e]
    unfold FM.bind
    rcases hr : copyObj D src n d f with ⟨r, g⟩
    rw [hr] at hc
    cases r with
    | error e => exact ⟨hc.kept, hc.new, fun _ h => by cases h⟩
    | ok c =>
      have hcc := hc.ok c rfl
      have := post_append (D := D) (src := src) (d := c) hc.kept hc.new (by rw [hcc.2.1]; exact h0) ⟨d, by rw [hcc.2.1]; exact hd, .inr hcc⟩
      rw [hcc.2.1] at this
      exact this
  · rename_i op hop
    split
    · exact (post_params op d.params.1 d.params.2 f).imp fun _ h => by rw [h.1, hop]; rfl
    · exact ⟨Kept.refl f, New'.refl D src f, fun _ _ => by dsimp only; rw [hop]; rfl⟩

theorem post_coll (hs : Sound D src) (n : Nat) (p : Path) (l : List Obj) : ∀ f, (∀ d ∈ l, src.find p d.key = some d) →
    Post D src f (updateColl D src n p l f) fun _ f' => ∀ d ∈ l, (f'.find p d.key).isSome := by
  induction l with
  | nil => intro f _; exact Post.pure fun _ h => by cases h
  | cons d r ih =>
    intro f hl
    unfold updateColl
    refine Post.bind (post_one hs n p d (hl d (by simp)) f) fun _ f1 _ h1 => ?_
    have := ih f1 fun x hx => hl x (by simp [hx])
    refine ⟨this.kept, this.new, fun a ha x hx => ?_⟩
    rcases List.mem_cons.1 hx with e | e
    · rw [e]; exact this.kept.stay.found _ _ h1
    · exact this.ok a ha x e

theorem post_colls (hs : Sound D src) (hk : Keyed src) (n : Nat) (l : List Path) : ∀ f,
    Post D src f (updateColls D src n l f) fun _ f' => ∀ p ∈ l, ∀ k, (src.find p k).isSome → (f'.find p k).isSome := by
  induction l with
  | nil => intro f; exact Post.pure fun _ h => by cases h
  | cons p r ih =>
    intro f
    unfold updateColls
    have hl : ∀ d ∈ (src.coll p).getD [], src.find p d.key = some d := by
      intro d hd
      cases hc : src.coll p with
      | none => rw [hc] at hd; simp at hd
      | some c =>
        rw [hc] at hd
        exact hk p c hc d hd
    refine Post.bind (post_coll hs n p _ f hl) fun _ f1 _ h1 => ?_
    have := ih f1
    refine ⟨this.kept, this.new, fun a ha q hq k hf => ?_⟩
    rcases List.mem_cons.1 hq with e | e
    · subst e
      obtain ⟨d, hd⟩ := Option.isSome_iff_exists.1 hf
      obtain ⟨c, hc, hcf⟩ := find_coll hd
      have hm : d ∈ (src.coll q).getD [] := by
        rw [hc]; exact List.mem_of_find?_eq_some hcf
      have := this.kept.stay.found _ _ (h1 d hm)
      rw [find_key hd] at this
      exact this
    · exact this.ok a ha q e k hf

/-! ## When `update` raises nothing -/

theorem like_find {f : File} (P : Item → Prop) [DecidablePred P] (hP : ∀ a b : Item, b.place = a.place → b.pid = a.pid → (P b ↔ P a)) {l m : List Item} (h : All (Like' D f) l m) :
    (l.find? fun x => P x) = none ∧ (m.find? fun x => P x) = none ∨ ∃ a ∈ l, ∃ b, (l.find? fun x => P x) = some a ∧ (m.find? fun x => P x) = some b ∧ Like' D f a b := by
  induction h with
  | nil => exact .inl ⟨rfl, rfl⟩
  | @cons a b l m hr _ ih =>
    have hp := hP a b hr.1 hr.2.2.1
    by_cases ha : P a
    · exact .inr ⟨a, by simp, b, by simp [ha], by simp [hp.2 ha], hr⟩
    · have hb : ¬ P b := fun h => ha (hp.1 h)
      rcases ih with ⟨h1, h2⟩ | ⟨x, hx, y, h1, h2, h3⟩
      · exact .inl ⟨by simp [ha, h1], by simp [hb, h2]⟩
      · exact .inr ⟨x, by simp [hx], y, by simp [ha, h1], by simp [hb, h2], h3⟩

theorem params_copy {f : File} {v c : Obj} (h : Copy' D f v c) (hs : ∀ it ∈ v.items, SoundItem D src it) : c.params.2 = v.params.2 := by
  have hl := like_find (D := D) (f := f) (fun it => it.place = [] ∧ it.pid = 0x1e09) (fun a b h1 h2 => by rw [h1, h2]) h.2.2
  unfold Obj.params
  rcases hl with ⟨h1, h2⟩ | ⟨a, ha, b, h1, h2, h3⟩
  · rw [h1, h2]
  · rw [h1, h2]
    have hsa := hs a ha
    obtain ⟨pa, ca, qa, va⟩ := a
    obtain ⟨pb, cb, qb, vb⟩ := b
    have hv := h3.2.2.2
    cases va with
    | data x => cases vb <;> simp only [LikeVal'] at hv; rfl
    | weak i q k => cases vb <;> simp only [LikeVal'] at hv; rfl
    | weaks w ks =>
      cases vb with
      | data x => simp only [LikeVal'] at hv
      | weak i q k => simp only [LikeVal'] at hv
      | weaks w' ks' =>
        simp only [LikeVal'] at hv
        obtain ⟨he, hv⟩ := hv
        subst he
        by_cases hn : ks' = []
        · subst hn
          cases w <;> cases w' <;> rfl
        · obtain ⟨i, q, hw, _⟩ := hv hn
          subst hw
          cases w with
          | none => exact absurd hsa hn
          | some w => rfl

theorem checkParams_ok {op : Obj} {i : Nat} {f : File} (ks : List Key) (h : ∀ k ∈ ks, (∃ x, src.resolve i k = .ok x) ∧ (f.find parameters k).isSome ∧ k ∈ op.params.2) :
    checkParams src op i ks f = (.ok (), f) := by
  induction ks with
  | nil => rfl
  | cons k r ih =>
    obtain ⟨⟨d, hd⟩, hf, ho⟩ := h k (by simp)
    obtain ⟨p, _, hp⟩ := of_resolve hd
    obtain ⟨y, hy⟩ := Option.isSome_iff_exists.1 hf
    unfold checkParams
    rw [bind_ok (a := d) (f' := f) (by rw [hd]; rfl), bind_ok (a := ()) (f' := f) (by rw [find_key hp]; simp only [checkParam, hy, ho, if_true])]
    exact ih fun x hx => h x (by simp [hx])

theorem before_find {f g : File} {done : List Path} {p t : Path} {earlier : List Obj} {k : Key} (hk : Kept f g)
    (hd : ∀ q ∈ done, ∀ k, (src.find q k).isSome → (g.find q k).isSome) (he : ∀ d ∈ earlier, (g.find p d.key).isSome) (h : Before src f done p earlier t k) : (g.find t k).isSome := by
  rcases h with h | ⟨h1, h2⟩ | ⟨h1, d, h2, h3⟩
  · exact hk.stay.found _ _ h
  · exact hd t h1 k h2
  · rw [h1, ← h3]; exact he d h2

theorem ready_of_ordered {f g : File} {done : List Path} {p : Path} {earlier : List Obj} {it : Item} (hk : Kept f g)
    (hd : ∀ q ∈ done, ∀ k, (src.find q k).isSome → (g.find q k).isSome) (he : ∀ d ∈ earlier, (g.find p d.key).isSome) (h : OrderedItem D src f done p earlier it) : ReadyItem D src g it := by
  have hc : ∀ {t : Path} {k : Key}, (g.find t k).isSome → (g.coll t).isSome := by
    intro t k hf
    obtain ⟨d, hd⟩ := Option.isSome_iff_exists.1 hf
    obtain ⟨c, hc, _⟩ := find_coll hd
    rw [hc]; rfl
  obtain ⟨pl, cls, pid, v⟩ := it
  cases v with
  | data b => trivial
  | weak i q k =>
    rcases h with h | ⟨h1, h2, h3⟩
    · have := before_find hk hd he h
      exact ⟨hc this, .inl this⟩
    · exact ⟨by simp only at h1 ⊢; rw [h1]; exact hk.colls _ h2, .inr ⟨h1, h3⟩⟩
  | weaks w ks =>
    obtain ⟨h1, h2⟩ := h
    have hf : ∀ k ∈ ks, (g.find (D.path cls pid) k).isSome := fun k hm => before_find hk hd he (h2 k hm)
    refine ⟨?_, hf⟩
    cases ks with
    | nil => exact hk.colls _ (h1 rfl)
    | cons k r => exact hc (hf k (by simp))

theorem updateColl_ok (hs : Sound D src) (n : Nat) {f : File} {done : List Path} {p : Path} {rest : List Path} (hu : updated = done ++ p :: rest) (ho : Ordered D src f)
    (hl : ∀ d ∈ (src.coll p).getD [], src.find p d.key = some d) (later : List Obj) : ∀ earlier g, (src.coll p).getD [] = earlier ++ later → Kept f g → New' D src f g →
    (∀ q ∈ done, ∀ k, (src.find q k).isSome → (g.find q k).isSome) → (∀ d ∈ earlier, (g.find p d.key).isSome) → ∃ g', updateColl D src (n + 1) p later g = (.ok (), g') := by
  induction later with
  | nil => intro _ g _ _ _ _ _; exact ⟨g, rfl⟩
  | cons d r ih =>
    intro earlier g he hk hn hd hm
    obtain ⟨hi, hp⟩ := ho done p rest hu earlier d r he
    have hsrc := hl d (by rw [he]; simp)
    have hsound := hs _ _ _ hsrc
    have hone : ∃ g1, updateOne D src (n + 1) p d g = (.ok (), g1) := by
      unfold updateOne
      split
      · obtain ⟨c, g1, h1⟩ := copyObj_ok hs n hsound fun it hit => ready_of_ordered hk hd hm (hi it hit)
        rw [bind_ok h1]
        exact ⟨_, rfl⟩
      · rename_i op hop
        split
        · rename_i hpo
          refine ⟨g, checkParams_ok _ fun k hkm => ?_⟩
          obtain ⟨h1, h2, h3⟩ := hp hpo k hkm
          refine ⟨h1, before_find hk hd hm h2, ?_⟩
          rcases hn _ _ _ hop with x | ⟨v, hv, x⟩
          · exact h3 op x
          · have hvd : v = d := by
              rw [find_key hop, hsrc] at hv
              injection hv with hv
              exact hv.symm
            subst hvd
            rcases x with ⟨x, _⟩ | x
            · rw [hpo] at x; exact absurd x (by decide)
            · rw [params_copy x hsound]; exact hkm
        · exact ⟨g, rfl⟩
    obtain ⟨g1, h1⟩ := hone
    have hpost := post_one hs (n + 1) p d hsrc g
    rw [h1] at hpost
    have hk1 := hpost.kept.stay
    obtain ⟨g2, h2⟩ := ih (earlier ++ [d]) g1 (by rw [he]; simp) (hk.trans hpost.kept) (hn.trans hk1 hpost.new) (fun q hq k h => hk1.found _ _ (hd q hq k h)) (by
      intro x hx
      rcases List.mem_append.1 hx with h | h
      · exact hk1.found _ _ (hm x h)
      · rw [List.mem_singleton] at h
        subst h
        exact hpost.ok () rfl)
    unfold updateColl
    rw [bind_ok h1]
    exact ⟨g2, h2⟩

theorem updateColls_ok (hs : Sound D src) (hkey : Keyed src) (n : Nat) {f : File} (ho : Ordered D src f) (rest : List Path) : ∀ done g, updated = done ++ rest → Kept f g → New' D src f g →
    (∀ q ∈ done, ∀ k, (src.find q k).isSome → (g.find q k).isSome) → ∃ g', updateColls D src (n + 1) rest g = (.ok (), g') := by
  induction rest with
  | nil => intro _ g _ _ _ _; exact ⟨g, rfl⟩
  | cons p r ih =>
    intro done g hu hk hn hd
    have hl : ∀ d ∈ (src.coll p).getD [], src.find p d.key = some d := by
      intro d hd
      cases hc : src.coll p with
      | none => rw [hc] at hd; simp at hd
      | some c =>
        rw [hc] at hd
        exact hkey p c hc d hd
    obtain ⟨g1, h1⟩ := updateColl_ok hs n hu ho hl ((src.coll p).getD []) [] g rfl hk hn hd (fun _ h => by cases h)
    have hpost := post_coll hs (n + 1) p _ g hl
    rw [h1] at hpost
    have hs1 := hpost.kept.stay
    obtain ⟨g2, h2⟩ := ih (done ++ [p]) g1 (by rw [hu]; simp) (hk.trans hpost.kept) (hn.trans hs1 hpost.new) (by
      intro q hq k h
      rcases List.mem_append.1 hq with hq | hq
      · exact hs1.found _ _ (hd q hq k h)
      · rw [List.mem_singleton] at hq
        subst hq
        obtain ⟨d, hd⟩ := Option.isSome_iff_exists.1 h
        obtain ⟨c, hc, hcf⟩ := find_coll hd
        have hm : d ∈ (src.coll q).getD [] := by
          rw [hc]; exact List.mem_of_find?_eq_some hcf
        have := hpost.ok () rfl d hm
        rw [find_key hd] at this
        exact this)
    unfold updateColls
    rw [bind_ok h1]
    exact ⟨g2, h2⟩

end Verif.WCopy
