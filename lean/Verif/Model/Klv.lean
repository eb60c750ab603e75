import Verif.Model.Auid
/-!
# MXF key-length-value parsing (`/repo/src/aaf2/mxf.py` 35-38, 824-855, 925-966)

A file is its bytes and a position; reading at the end returns fewer bytes.
-/
namespace Verif.Klv

/-- `read_u8` (utils.py:12-14): `struct.error` at the end of the file. -/
def readU8 (data : Bytes) (tell : Nat) : Res (Nat × Nat) :=
  match data[tell]? with
  | none => .error .structError
  | some b => .ok (b.toNat, tell + 1)

/-- `read_u16be`, `read_u32be` (utils.py:23-36): `n` bytes, big endian. -/
def readBe (n : Nat) (data : Bytes) (tell : Nat) : Res (Nat × Nat) :=
  if (slice data tell (tell + n)).length ≠ n then .error .structError
  else .ok (unBe (slice data tell (tell + n)), tell + n)

/-- `ber_length` (mxf.py:824-831). -/
def berLength (data : Bytes) (tell : Nat) : Res (Nat × Nat) :=
  match readU8 data tell with
  | .error e => .error e
  | .ok (l, tell) =>
    if l > 127 then
      let d := slice data tell (tell + (l - 128))
      if d.length ≠ l - 128 then .error .assertion
      else .ok (unBe d, tell + (l - 128))
    else .ok (l, tell)

theorem berLength_tell {data : Bytes} {tell l t : Nat} (h : berLength data tell = .ok (l, t)) :
    tell < t ∧ tell < data.length := by
  simp only [berLength, readU8] at h
  cases hd : data[tell]? with
  | none => rw [hd] at h; cases h
  | some b =>
    rw [hd] at h
    have hl : tell < data.length := by
      rcases Nat.lt_or_ge tell data.length with h | h
      · exact h
      · rw [List.getElem?_eq_none h] at hd; cases hd
    simp only at h
    split at h
    · split at h
      · cases h
      · cases h; exact ⟨by omega, hl⟩
    · cases h; exact ⟨by omega, hl⟩

/-- `f.seek(pos)`: the new position, whatever the old one. (Used in `iterKl`: mxf.py:834-847.) -/
def seek (_tell pos : Nat) : Nat := pos

/-- `iter_kl` (mxf.py:834-847): the triples (key, length, position of the value) and the exception that
ended it.  `consume i t` is where the consumer of the `i`-th packet leaves the file position.  The key is
`AUID(bytes_be=data)` (mxf.py:35-38), also for a key cut off by the end of the file. -/
def iterKl (data : Bytes) (consume : Nat → Nat → Nat) (i pos tell : Nat) :
    List (Bytes × Nat × Nat) × Option Err :=
  let key := slice data (seek tell pos) (seek tell pos + 16)
  if key = [] then ([], none)
  else
    match h : berLength data (seek tell pos + key.length) with
    | .error e => ([], some e)
    | .ok (length, tell) =>
      let (r, e) := iterKl data consume (i + 1) (tell + length) (consume i tell)
      ((Auid.ofBytesBe key, length, tell) :: r, e)
termination_by data.length - pos
decreasing_by
  have := berLength_tell h
  simp only [seek] at this
  omega

/-- `iter_tags` (mxf.py:849-855) from the position `tell`: the pairs yielded, the exception if any, and
the final position.  `length` may become negative. -/
def iterTags (data : Bytes) (tell : Nat) (length : Int) : List (Nat × Bytes) × Option Err × Nat :=
  if h : length > 0 then
    match readBe 2 data tell with
    | .error e => ([], some e, tell)
    | .ok (tag, tell) =>
      match readBe 2 data tell with
      | .error e => ([], some e, tell)
      | .ok (size, tell) =>
        let (r, e) := iterTags data (tell + (slice data tell (tell + size)).length) (length - (4 + size))
        (if size ≠ 0 then ((tag, slice data tell (tell + size)) :: r, e) else (r, e))
  else ([], none, tell)
termination_by length.toNat
decreasing_by omega

/-- The loop of `read_primer` (mxf.py:959-964). -/
def primerLoop (data : Bytes) : Nat → Nat → Res (List (Nat × Bytes))
  | 0, _ => .ok []
  | n + 1, tell =>
    match readBe 2 data tell with
    | .error e => .error e
    | .ok (tag, tell) =>
      let d := slice data tell (tell + 16)
      match primerLoop data n (tell + d.length) with
      | .error e => .error e
      | .ok r => .ok ((tag, Auid.ofBytesBe d) :: r)

/-- `read_primer` (mxf.py:950-966): the pairs in the order they are put into the dictionary (a later
pair replaces an earlier one); `none` for a refused table. -/
def readPrimer (data : Bytes) (tell : Nat) : Res (Option (List (Nat × Bytes))) :=
  match readBe 4 data tell with
  | .error e => .error e
  | .ok (num, tell) =>
    match readBe 4 data tell with
    | .error e => .error e
    | .ok (len, tell) =>
      if len ≠ 18 then .ok none
      else if num > 65536 then .ok none
      else
        match primerLoop data num tell with
        | .error e => .error e
        | .ok r => .ok (some r)

/-- `round_to_kag` (mxf.py:925-929). -/
def roundToKag (pos kag : Nat) : Res Nat :=
  if kag = 0 then .error .zeroDivision
  else if pos / kag * kag = pos then .ok pos
  else .ok (pos + kag)

end Verif.Klv
