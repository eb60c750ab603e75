import Verif.Model.TypeDict
/-!
# The types of the library

The tables of `/repo/src/aaf2/model/typedefs.py`, `/repo/src/aaf2/model/ext/typedefs.py` and `metadict.py` (309-312), in the order of the
categories (types.py:951-968), and how they are registered.  Generated from the text of the tables; names are numbers
(big-endian text), identifiers of elements are the bytes of the file.
-/
namespace Verif.TDict
open Verif.Meta (Auid Name get put)

/-- A declaration of the tables (metadict.py:353-384): an enumeration whose name is there gets the elements. -/
def declare (d : Dict) (t : TDef) : Dict :=
  match t.kind, get d.byName t.name with
  | .enum _ src, some i =>
    match d.heap[i]? with
    | some ⟨a, n, .enum e els⟩ =>
      { d with heap := d.heap.set i ⟨a, n, .enum e (src.foldl (fun acc p => addCode acc p.2 p.1) els)⟩, byName := put d.byName t.name i, byAuid := put d.byAuid a i }
    | _ => d
  | .ext src, some i =>
    match d.heap[i]? with
    | some ⟨a, n, .ext els⟩ =>
      { d with heap := d.heap.set i ⟨a, n, .ext (src.foldl (fun acc p => addKey acc p.2 p.1) els)⟩, byName := put d.byName t.name i, byAuid := put d.byAuid a i }
    | _ => d
  | _, _ => d.add t

/-- `root_types` (metadict.py:309-312). -/
def rootTypes : List TDef := [
  ⟨0x0502280000000000060e2b3401040101, 0x4865616465725374726f6e67526566656e6365, .strong 0x0d01010101012f00060e2b3402060101⟩,
  ⟨0x0502270000000000060e2b3401040101, 0x4d65746144696374696f6e6172795374726f6e675265666572656e6365, .strong 0x0d01010102250000060e2b3402060101⟩]

/-- The tables of model/typedefs.py. -/
def baseTypes : List TDef := [
  ⟨0x0101010000000000060e2b3401040101, 0x61616655496e7438, .int 1 false⟩,
  ⟨0x0101020000000000060e2b3401040101, 0x61616655496e743136, .int 2 false⟩,
  ⟨0x0101030000000000060e2b3401040101, 0x61616655496e743332, .int 4 false⟩,
  ⟨0x0101040000000000060e2b3401040101, 0x61616655496e743634, .int 8 false⟩,
  ⟨0x0101050000000000060e2b3401040101, 0x616166496e7438, .int 1 true⟩,
  ⟨0x0101060000000000060e2b3401040101, 0x616166496e743136, .int 2 true⟩,
  ⟨0x0101070000000000060e2b3401040101, 0x616166496e743332, .int 4 true⟩,
  ⟨0x0101080000000000060e2b3401040101, 0x616166496e743634, .int 8 true⟩,
  ⟨0x0104010000000000060e2b3401040101, 0x426f6f6c65616e, .enum 0x0101010000000000060e2b3401040101 [(0, [70, 97, 108, 115, 101]), (1, [84, 114, 117, 101])]⟩,
  ⟨0x0201010100000000060e2b3401040101, 0x50726f6475637452656c6561736554797065, .enum 0x0101010000000000060e2b3401040101 [(0, [86, 101, 114, 115, 105, 111, 110, 85, 110, 107, 110, 111, 119, 110]), (1, [86, 101, 114, 115, 105, 111, 110, 82, 101, 108, 101, 97, 115, 101, 100]), (2, [86, 101, 114, 115, 105, 111, 110, 68, 101, 98, 117, 103]), (3, [86, 101, 114, 115, 105, 111, 110, 80, 97, 116, 99, 104, 101, 100]), (4, [86, 101, 114, 115, 105, 111, 110, 66, 101, 116, 97]), (5, [86, 101, 114, 115, 105, 111, 110, 80, 114, 105, 118, 97, 116, 101, 66, 117, 105, 108, 100])]⟩,
  ⟨0x0201010200000000060e2b3401040101, 0x54617065466f726d617454797065, .enum 0x0101010000000000060e2b3401040101 [(0, [84, 97, 112, 101, 70, 111, 114, 109, 97, 116, 78, 117, 108, 108]), (1, [66, 101, 116, 97, 99, 97, 109, 70, 111, 114, 109, 97, 116]), (2, [66, 101, 116, 97, 99, 97, 109, 83, 80, 70, 111, 114, 109, 97, 116]), (3, [86, 72, 83, 70, 111, 114, 109, 97, 116]), (4, [83, 86, 72, 83, 70, 111, 114, 109, 97, 116]), (5, [56, 109, 109, 70, 111, 114, 109, 97, 116]), (6, [72, 105, 56, 70, 111, 114, 109, 97, 116])]⟩,
  ⟨0x0201010300000000060e2b3401040101, 0x566964656f5369676e616c54797065, .enum 0x0101010000000000060e2b3401040101 [(0, [86, 105, 100, 101, 111, 83, 105, 103, 110, 97, 108, 78, 117, 108, 108]), (1, [78, 84, 83, 67, 83, 105, 103, 110, 97, 108]), (2, [80, 65, 76, 83, 105, 103, 110, 97, 108])]⟩,
  ⟨0x0201010400000000060e2b3401040101, 0x546170654361736554797065, .enum 0x0101010000000000060e2b3401040101 [(0, [84, 97, 112, 101, 67, 97, 115, 101, 78, 117, 108, 108]), (1, [84, 104, 114, 101, 101, 70, 111, 117, 114, 116, 104, 73, 110, 99, 104, 86, 105, 100, 101, 111, 84, 97, 112, 101]), (2, [86, 72, 83, 86, 105, 100, 101, 111, 84, 97, 112, 101]), (3, [56, 109, 109, 86, 105, 100, 101, 111, 84, 97, 112, 101]), (4, [66, 101, 116, 97, 99, 97, 109, 86, 105, 100, 101, 111, 84, 97, 112, 101]), (5, [67, 111, 109, 112, 97, 99, 116, 67, 97, 115, 115, 101, 116, 116, 101]), (6, [68, 65, 84, 67, 97, 114, 116, 114, 105, 100, 103, 101]), (7, [78, 97, 103, 114, 97, 65, 117, 100, 105, 111, 84, 97, 112, 101])]⟩,
  ⟨0x0201010500000000060e2b3401040101, 0x436f6c6f72536974696e6754797065, .enum 0x0101010000000000060e2b3401040101 [(0, [67, 111, 83, 105, 116, 105, 110, 103]), (1, [65, 118, 101, 114, 97, 103, 105, 110, 103]), (2, [84, 104, 114, 101, 101, 84, 97, 112]), (3, [81, 117, 105, 110, 99, 117, 110, 120]), (4, [82, 101, 99, 54, 48, 49]), (5, [76, 105, 110, 101, 65, 108, 116, 101, 114, 110, 97, 116, 105, 110, 103]), (6, [86, 101, 114, 116, 105, 99, 97, 108, 77, 105, 100, 112, 111, 105, 110, 116]), (255, [85, 110, 107, 110, 111, 119, 110, 83, 105, 116, 105, 110, 103])]⟩,
  ⟨0x0201010600000000060e2b3401040101, 0x4564697448696e7454797065, .enum 0x0101010000000000060e2b3401040101 [(0, [78, 111, 69, 100, 105, 116, 72, 105, 110, 116]), (1, [80, 114, 111, 112, 111, 114, 116, 105, 111, 110, 97, 108]), (2, [82, 101, 108, 97, 116, 105, 118, 101, 76, 101, 102, 116]), (3, [82, 101, 108, 97, 116, 105, 118, 101, 82, 105, 103, 104, 116]), (4, [82, 101, 108, 97, 116, 105, 118, 101, 70, 105, 120, 101, 100])]⟩,
  ⟨0x0201010700000000060e2b3401040101, 0x4661646554797065, .enum 0x0101010000000000060e2b3401040101 [(0, [70, 97, 100, 101, 78, 111, 110, 101]), (1, [70, 97, 100, 101, 76, 105, 110, 101, 97, 114, 65, 109, 112]), (2, [70, 97, 100, 101, 76, 105, 110, 101, 97, 114, 80, 111, 119, 101, 114])]⟩,
  ⟨0x0201010800000000060e2b3401040101, 0x4c61796f757454797065, .enum 0x0101010000000000060e2b3401040101 [(0, [70, 117, 108, 108, 70, 114, 97, 109, 101]), (1, [83, 101, 112, 97, 114, 97, 116, 101, 70, 105, 101, 108, 100, 115]), (2, [79, 110, 101, 70, 105, 101, 108, 100]), (3, [77, 105, 120, 101, 100, 70, 105, 101, 108, 100, 115]), (4, [83, 101, 103, 109, 101, 110, 116, 101, 100, 70, 114, 97, 109, 101])]⟩,
  ⟨0x0201010900000000060e2b3401040101, 0x5443536f75726365, .enum 0x0101010000000000060e2b3401040101 [(0, [84, 105, 109, 101, 99, 111, 100, 101, 76, 84, 67]), (1, [84, 105, 109, 101, 99, 111, 100, 101, 86, 73, 84, 67])]⟩,
  ⟨0x0201010a00000000060e2b3401040101, 0x50756c6c646f776e446972656374696f6e54797065, .enum 0x0101010000000000060e2b3401040101 [(0, [84, 97, 112, 101, 84, 111, 70, 105, 108, 109, 83, 112, 101, 101, 100]), (1, [70, 105, 108, 109, 84, 111, 84, 97, 112, 101, 83, 112, 101, 101, 100])]⟩,
  ⟨0x0201010b00000000060e2b3401040101, 0x50756c6c646f776e4b696e6454797065, .enum 0x0101010000000000060e2b3401040101 [(0, [84, 119, 111, 84, 104, 114, 101, 101, 80, 68]), (1, [80, 65, 76, 80, 68]), (2, [79, 110, 101, 84, 111, 79, 110, 101, 78, 84, 83, 67]), (3, [79, 110, 101, 84, 111, 79, 110, 101, 80, 65, 76]), (4, [86, 105, 100, 101, 111, 84, 97, 112, 78, 84, 83, 67]), (5, [79, 110, 101, 84, 111, 79, 110, 101, 72, 68, 83, 105, 120, 116, 121]), (6, [84, 119, 101, 110, 116, 121, 70, 111, 117, 114, 84, 111, 83, 105, 120, 116, 121, 80, 68]), (7, [84, 119, 111, 84, 111, 79, 110, 101, 80, 68])]⟩,
  ⟨0x0201010c00000000060e2b3401040101, 0x4564676554797065, .enum 0x0101010000000000060e2b3401040101 [(0, [69, 116, 78, 117, 108, 108]), (1, [69, 116, 75, 101, 121, 99, 111, 100, 101]), (2, [69, 116, 69, 100, 103, 101, 110, 117, 109, 52]), (3, [69, 116, 69, 100, 103, 101, 110, 117, 109, 53]), (8, [69, 116, 72, 101, 97, 100, 101, 114, 83, 105, 122, 101])]⟩,
  ⟨0x0201010d00000000060e2b3401040101, 0x46696c6d54797065, .enum 0x0101010000000000060e2b3401040101 [(0, [70, 116, 78, 117, 108, 108]), (1, [70, 116, 51, 53, 77, 77]), (2, [70, 116, 49, 54, 77, 77]), (3, [70, 116, 56, 77, 77]), (4, [70, 116, 54, 53, 77, 77])]⟩,
  ⟨0x0201010e00000000060e2b3401040101, 0x52474241436f6d706f6e656e744b696e64, .enum 0x0101010000000000060e2b3401040101 [(48, [67, 111, 109, 112, 78, 111, 110, 101]), (65, [67, 111, 109, 112, 65, 108, 112, 104, 97]), (66, [67, 111, 109, 112, 66, 108, 117, 101]), (70, [67, 111, 109, 112, 70, 105, 108, 108]), (71, [67, 111, 109, 112, 71, 114, 101, 101, 110]), (80, [67, 111, 109, 112, 80, 97, 108, 101, 116, 116, 101]), (82, [67, 111, 109, 112, 82, 101, 100]), (0, [67, 111, 109, 112, 78, 117, 108, 108]), (114, [67, 111, 109, 112, 82, 101, 100, 76, 83, 66, 115]), (103, [67, 111, 109, 112, 71, 114, 101, 101, 110, 76, 83, 66, 115]), (98, [67, 111, 109, 112, 66, 108, 117, 101, 76, 83, 66, 115]), (97, [67, 111, 109, 112, 65, 108, 112, 104, 97, 76, 83, 66, 115]), (85, [67, 111, 109, 112, 67, 111, 108, 111, 114, 68, 105, 102, 102, 101, 114, 101, 110, 99, 101, 85]), (86, [67, 111, 109, 112, 67, 111, 108, 111, 114, 68, 105, 102, 102, 101, 114, 101, 110, 99, 101, 86]), (87, [67, 111, 109, 112, 67, 111, 109, 112, 111, 115, 105, 116, 101]), (88, [67, 111, 109, 112, 78, 111, 110, 67, 111, 83, 105, 116, 101, 100, 76, 117, 109, 97]), (89, [67, 111, 109, 112, 76, 117, 109, 97]), (90, [67, 111, 109, 112, 68, 101, 112, 116, 104]), (117, [67, 111, 109, 112, 67, 111, 108, 111, 114, 68, 105, 102, 102, 101, 114, 101, 110, 99, 101, 85, 76, 83, 66, 115]), (118, [67, 111, 109, 112, 67, 111, 108, 111, 114, 68, 105, 102, 102, 101, 114, 101, 110, 99, 101, 86, 76, 83, 66, 115]), (119, [67, 111, 109, 112, 67, 111, 109, 112, 111, 115, 105, 116, 101, 76, 83, 66, 115]), (120, [67, 111, 109, 112, 78, 111, 110, 67, 111, 83, 105, 116, 101, 100, 76, 117, 109, 97, 76, 83, 66, 115]), (121, [67, 111, 109, 112, 76, 117, 109, 97, 76, 83, 66, 115]), (122, [67, 111, 109, 112, 68, 101, 112, 116, 104, 76, 83, 66, 115]), (216, [67, 111, 109, 112, 67, 111, 108, 111, 114, 88]), (217, [67, 111, 109, 112, 67, 111, 108, 111, 114, 89]), (218, [67, 111, 109, 112, 67, 111, 108, 111, 114, 90])]⟩,
  ⟨0x0201010f00000000060e2b3401040101, 0x5265666572656e636554797065, .enum 0x0101010000000000060e2b3401040101 [(0, [82, 101, 102, 76, 105, 109, 105, 116, 77, 105, 110, 105, 109, 117, 109]), (1, [82, 101, 102, 76, 105, 109, 105, 116, 77, 97, 120, 105, 109, 117, 109]), (2, [82, 101, 102, 77, 105, 110, 105, 109, 117, 109]), (3, [82, 101, 102, 77, 97, 120, 105, 109, 117, 109]), (4, [82, 101, 102, 69, 110, 117, 109, 118, 97, 108, 117, 101])]⟩,
  ⟨0x0201012000000000060e2b3401040101, 0x416c7068615472616e73706172656e637954797065, .enum 0x0101010000000000060e2b3401040101 [(0, [77, 105, 110, 86, 97, 108, 117, 101, 84, 114, 97, 110, 115, 112, 97, 114, 101, 110, 116]), (1, [77, 97, 120, 86, 97, 108, 117, 101, 84, 114, 97, 110, 115, 112, 97, 114, 101, 110, 116])]⟩,
  ⟨0x0201012100000000060e2b3401040101, 0x4669656c644e756d626572, .enum 0x0101010000000000060e2b3401040101 [(0, [85, 110, 115, 112, 101, 99, 105, 102, 105, 101, 100, 70, 105, 101, 108, 100]), (1, [70, 105, 101, 108, 100, 79, 110, 101]), (2, [70, 105, 101, 108, 100, 84, 119, 111])]⟩,
  ⟨0x0201012200000000060e2b3401040101, 0x456c656374726f5370617469616c466f726d756c6174696f6e, .enum 0x0101010000000000060e2b3401040101 [(0, [69, 108, 101, 99, 116, 114, 111, 83, 112, 97, 116, 105, 97, 108, 70, 111, 114, 109, 117, 108, 97, 116, 105, 111, 110, 95, 68, 101, 102, 97, 117, 108, 116]), (1, [69, 108, 101, 99, 116, 114, 111, 83, 112, 97, 116, 105, 97, 108, 70, 111, 114, 109, 117, 108, 97, 116, 105, 111, 110, 95, 84, 119, 111, 67, 104, 97, 110, 110, 101, 108, 77, 111, 100, 101]), (2, [69, 108, 101, 99, 116, 114, 111, 83, 112, 97, 116, 105, 97, 108, 70, 111, 114, 109, 117, 108, 97, 116, 105, 111, 110, 95, 83, 105, 110, 103, 108, 101, 67, 104, 97, 110, 110, 101, 108, 77, 111, 100, 101]), (3, [69, 108, 101, 99, 116, 114, 111, 83, 112, 97, 116, 105, 97, 108, 70, 111, 114, 109, 117, 108, 97, 116, 105, 111, 110, 95, 80, 114, 105, 109, 97, 114, 121, 83, 101, 99, 111, 110, 100, 97, 114, 121, 77, 111, 100, 101]), (4, [69, 108, 101, 99, 116, 114, 111, 83, 112, 97, 116, 105, 97, 108, 70, 111, 114, 109, 117, 108, 97, 116, 105, 111, 110, 95, 83, 116, 101, 114, 101, 111, 112, 104, 111, 110, 105, 99, 77, 111, 100, 101]), (7, [69, 108, 101, 99, 116, 114, 111, 83, 112, 97, 116, 105, 97, 108, 70, 111, 114, 109, 117, 108, 97, 116, 105, 111, 110, 95, 83, 105, 110, 103, 108, 101, 67, 104, 97, 110, 110, 101, 108, 68, 111, 117, 98, 108, 101, 83, 97, 109, 112, 108, 105, 110, 103, 70, 114, 101, 113, 117, 101, 110, 99, 121, 77, 111, 100, 101]), (8, [69, 108, 101, 99, 116, 114, 111, 83, 112, 97, 116, 105, 97, 108, 70, 111, 114, 109, 117, 108, 97, 116, 105, 111, 110, 95, 83, 116, 101, 114, 101, 111, 76, 101, 102, 116, 67, 104, 97, 110, 110, 101, 108, 68, 111, 117, 98, 108, 101, 83, 97, 109, 112, 108, 105, 110, 103, 70, 114, 101, 113, 117, 101, 110, 99, 121, 77, 111, 100, 101]), (9, [69, 108, 101, 99, 116, 114, 111, 83, 112, 97, 116, 105, 97, 108, 70, 111, 114, 109, 117, 108, 97, 116, 105, 111, 110, 95, 83, 116, 101, 114, 101, 111, 82, 105, 103, 104, 116, 67, 104, 97, 110, 110, 101, 108, 68, 111, 117, 98, 108, 101, 83, 97, 109, 112, 108, 105, 110, 103, 70, 114, 101, 113, 117, 101, 110, 99, 121, 77, 111, 100, 101]), (15, [69, 108, 101, 99, 116, 114, 111, 83, 112, 97, 116, 105, 97, 108, 70, 111, 114, 109, 117, 108, 97, 116, 105, 111, 110, 95, 77, 117, 108, 116, 105, 67, 104, 97, 110, 110, 101, 108, 77, 111, 100, 101])]⟩,
  ⟨0x0201012300000000060e2b3401040101, 0x456d70686173697354797065, .enum 0x0101010000000000060e2b3401040101 [(0, [69, 109, 112, 104, 97, 115, 105, 115, 95, 85, 110, 107, 110, 111, 119, 110]), (1, [69, 109, 112, 104, 97, 115, 105, 115, 95, 82, 101, 115, 101, 114, 118, 101, 100, 48]), (2, [69, 109, 112, 104, 97, 115, 105, 115, 95, 82, 101, 115, 101, 114, 118, 101, 100, 49]), (3, [69, 109, 112, 104, 97, 115, 105, 115, 95, 82, 101, 115, 101, 114, 118, 101, 100, 50]), (4, [69, 109, 112, 104, 97, 115, 105, 115, 95, 78, 111, 110, 101]), (5, [69, 109, 112, 104, 97, 115, 105, 115, 95, 82, 101, 115, 101, 114, 118, 101, 100, 51]), (6, [69, 109, 112, 104, 97, 115, 105, 115, 95, 49, 53, 97, 110, 100, 53, 48]), (7, [69, 109, 112, 104, 97, 115, 105, 115, 95, 73, 84, 85])]⟩,
  ⟨0x0201012400000000060e2b3401040101, 0x417578426974734d6f646554797065, .enum 0x0101010000000000060e2b3401040101 [(0, [65, 117, 120, 66, 105, 116, 115, 77, 111, 100, 101, 95, 78, 111, 116, 68, 101, 102, 105, 110, 101, 100]), (1, [65, 117, 120, 66, 105, 116, 115, 77, 111, 100, 101, 95, 77, 97, 105, 110, 65, 117, 100, 105, 111, 83, 97, 109, 112, 108, 101, 68, 97, 116, 97]), (2, [65, 117, 120, 66, 105, 116, 115, 77, 111, 100, 101, 95, 83, 105, 110, 103, 108, 101, 67, 111, 111, 114, 100, 105, 110, 97, 116, 105, 111, 110, 83, 105, 103, 110, 97, 108]), (3, [65, 117, 120, 66, 105, 116, 115, 77, 111, 100, 101, 95, 85, 115, 101, 114, 68, 101, 102, 105, 110, 101, 100]), (4, [65, 117, 120, 66, 105, 116, 115, 77, 111, 100, 101, 95, 82, 101, 115, 101, 114, 118, 101, 100, 48]), (5, [65, 117, 120, 66, 105, 116, 115, 77, 111, 100, 101, 95, 82, 101, 115, 101, 114, 118, 101, 100, 49]), (6, [65, 117, 120, 66, 105, 116, 115, 77, 111, 100, 101, 95, 82, 101, 115, 101, 114, 118, 101, 100, 50]), (7, [65, 117, 120, 66, 105, 116, 115, 77, 111, 100, 101, 95, 82, 101, 115, 101, 114, 118, 101, 100, 51])]⟩,
  ⟨0x0201012500000000060e2b3401040101, 0x4368616e6e656c5374617475734d6f646554797065, .enum 0x0101010000000000060e2b3401040101 [(0, [67, 104, 97, 110, 110, 101, 108, 83, 116, 97, 116, 117, 115, 77, 111, 100, 101, 95, 78, 111, 110, 101]), (1, [67, 104, 97, 110, 110, 101, 108, 83, 116, 97, 116, 117, 115, 77, 111, 100, 101, 95, 77, 105, 110, 105, 109, 117, 109]), (2, [67, 104, 97, 110, 110, 101, 108, 83, 116, 97, 116, 117, 115, 77, 111, 100, 101, 95, 83, 116, 97, 110, 100, 97, 114, 100]), (3, [67, 104, 97, 110, 110, 101, 108, 83, 116, 97, 116, 117, 115, 77, 111, 100, 101, 95, 70, 105, 120, 101, 100]), (4, [67, 104, 97, 110, 110, 101, 108, 83, 116, 97, 116, 117, 115, 77, 111, 100, 101, 95, 83, 116, 114, 101, 97, 109]), (5, [67, 104, 97, 110, 110, 101, 108, 83, 116, 97, 116, 117, 115, 77, 111, 100, 101, 95, 69, 115, 115, 101, 110, 99, 101])]⟩,
  ⟨0x0201012600000000060e2b3401040101, 0x55736572446174614d6f646554797065, .enum 0x0101010000000000060e2b3401040101 [(0, [85, 115, 101, 114, 68, 97, 116, 97, 77, 111, 100, 101, 95, 78, 111, 116, 68, 101, 102, 105, 110, 101, 100]), (1, [85, 115, 101, 114, 68, 97, 116, 97, 77, 111, 100, 101, 95, 49, 57, 50, 66, 105, 116, 66, 108, 111, 99, 107, 83, 116, 114, 117, 99, 116, 117, 114, 101]), (2, [85, 115, 101, 114, 68, 97, 116, 97, 77, 111, 100, 101, 95, 65, 69, 83, 49, 56]), (3, [85, 115, 101, 114, 68, 97, 116, 97, 77, 111, 100, 101, 95, 85, 115, 101, 114, 68, 101, 102, 105, 110, 101, 100]), (4, [85, 115, 101, 114, 68, 97, 116, 97, 77, 111, 100, 101, 95, 73, 69, 67]), (5, [85, 115, 101, 114, 68, 97, 116, 97, 77, 111, 100, 101, 95, 77, 101, 116, 97, 100, 97, 116, 97]), (6, [85, 115, 101, 114, 68, 97, 116, 97, 77, 111, 100, 101, 95, 82, 101, 115, 101, 114, 118, 101, 100, 48]), (7, [85, 115, 101, 114, 68, 97, 116, 97, 77, 111, 100, 101, 95, 82, 101, 115, 101, 114, 118, 101, 100, 49]), (8, [85, 115, 101, 114, 68, 97, 116, 97, 77, 111, 100, 101, 95, 82, 101, 115, 101, 114, 118, 101, 100, 50]), (9, [85, 115, 101, 114, 68, 97, 116, 97, 77, 111, 100, 101, 95, 82, 101, 115, 101, 114, 118, 101, 100, 51]), (10, [85, 115, 101, 114, 68, 97, 116, 97, 77, 111, 100, 101, 95, 82, 101, 115, 101, 114, 118, 101, 100, 52]), (11, [85, 115, 101, 114, 68, 97, 116, 97, 77, 111, 100, 101, 95, 82, 101, 115, 101, 114, 118, 101, 100, 53]), (12, [85, 115, 101, 114, 68, 97, 116, 97, 77, 111, 100, 101, 95, 82, 101, 115, 101, 114, 118, 101, 100, 54]), (13, [85, 115, 101, 114, 68, 97, 116, 97, 77, 111, 100, 101, 95, 82, 101, 115, 101, 114, 118, 101, 100, 55]), (14, [85, 115, 101, 114, 68, 97, 116, 97, 77, 111, 100, 101, 95, 82, 101, 115, 101, 114, 118, 101, 100, 56]), (15, [85, 115, 101, 114, 68, 97, 116, 97, 77, 111, 100, 101, 95, 82, 101, 115, 101, 114, 118, 101, 100, 57])]⟩,
  ⟨0x0201012700000000060e2b3401040101, 0x5369676e616c5374616e6461726454797065, .enum 0x0101010000000000060e2b3401040101 [(0, [83, 105, 103, 110, 97, 108, 83, 116, 97, 110, 100, 97, 114, 100, 95, 78, 111, 110, 101]), (1, [83, 105, 103, 110, 97, 108, 83, 116, 97, 110, 100, 97, 114, 100, 95, 73, 84, 85, 54, 48, 49]), (2, [83, 105, 103, 110, 97, 108, 83, 116, 97, 110, 100, 97, 114, 100, 95, 73, 84, 85, 49, 51, 53, 56]), (3, [83, 105, 103, 110, 97, 108, 83, 116, 97, 110, 100, 97, 114, 100, 95, 83, 77, 80, 84, 69, 51, 52, 55, 77]), (4, [83, 105, 103, 110, 97, 108, 83, 116, 97, 110, 100, 97, 114, 100, 95, 83, 77, 80, 84, 69, 50, 55, 52, 77]), (5, [83, 105, 103, 110, 97, 108, 83, 116, 97, 110, 100, 97, 114, 100, 95, 83, 77, 80, 84, 69, 50, 57, 54, 77]), (6, [83, 105, 103, 110, 97, 108, 83, 116, 97, 110, 100, 97, 114, 100, 95, 83, 77, 80, 84, 69, 51, 52, 57, 77]), (7, [83, 105, 103, 110, 97, 108, 83, 116, 97, 110, 100, 97, 114, 100, 95, 83, 77, 80, 84, 69, 52, 50, 56, 95, 49])]⟩,
  ⟨0x0201012800000000060e2b3401040101, 0x5363616e6e696e67446972656374696f6e54797065, .enum 0x0101010000000000060e2b3401040101 [(0, [83, 99, 97, 110, 110, 105, 110, 103, 68, 105, 114, 101, 99, 116, 105, 111, 110, 95, 76, 101, 102, 116, 84, 111, 82, 105, 103, 104, 116, 84, 111, 112, 84, 111, 66, 111, 116, 116, 111, 109]), (1, [83, 99, 97, 110, 110, 105, 110, 103, 68, 105, 114, 101, 99, 116, 105, 111, 110, 95, 82, 105, 103, 104, 116, 84, 111, 76, 101, 102, 116, 84, 111, 112, 84, 111, 66, 111, 116, 116, 111, 109]), (2, [83, 99, 97, 110, 110, 105, 110, 103, 68, 105, 114, 101, 99, 116, 105, 111, 110, 95, 76, 101, 102, 116, 84, 111, 82, 105, 103, 104, 116, 66, 111, 116, 116, 111, 109, 84, 111, 84, 111, 112]), (3, [83, 99, 97, 110, 110, 105, 110, 103, 68, 105, 114, 101, 99, 116, 105, 111, 110, 95, 82, 105, 103, 104, 116, 84, 111, 76, 101, 102, 116, 66, 111, 116, 116, 111, 109, 84, 111, 84, 111, 112]), (4, [83, 99, 97, 110, 110, 105, 110, 103, 68, 105, 114, 101, 99, 116, 105, 111, 110, 95, 84, 111, 112, 84, 111, 66, 111, 116, 116, 111, 109, 76, 101, 102, 116, 84, 111, 82, 105, 103, 104, 116]), (5, [83, 99, 97, 110, 110, 105, 110, 103, 68, 105, 114, 101, 99, 116, 105, 111, 110, 95, 84, 111, 112, 84, 111, 66, 111, 116, 116, 111, 109, 82, 105, 103, 104, 116, 84, 111, 76, 101, 102, 116]), (6, [83, 99, 97, 110, 110, 105, 110, 103, 68, 105, 114, 101, 99, 116, 105, 111, 110, 95, 66, 111, 116, 116, 111, 109, 84, 111, 84, 111, 112, 76, 101, 102, 116, 84, 111, 82, 105, 103, 104, 116]), (7, [83, 99, 97, 110, 110, 105, 110, 103, 68, 105, 114, 101, 99, 116, 105, 111, 110, 95, 66, 111, 116, 116, 111, 109, 84, 111, 84, 111, 112, 82, 105, 103, 104, 116, 84, 111, 76, 101, 102, 116])]⟩,
  ⟨0x0201012a00000000060e2b3401040101, 0x436f6e74656e745363616e6e696e6754797065, .enum 0x0101010000000000060e2b3401040101 [(0, [67, 111, 110, 116, 101, 110, 116, 83, 99, 97, 110, 110, 105, 110, 103, 95, 78, 111, 116, 75, 110, 111, 119, 110]), (1, [67, 111, 110, 116, 101, 110, 116, 83, 99, 97, 110, 110, 105, 110, 103, 95, 80, 114, 111, 103, 114, 101, 115, 115, 105, 118, 101]), (2, [67, 111, 110, 116, 101, 110, 116, 83, 99, 97, 110, 110, 105, 110, 103, 95, 73, 110, 116, 101, 114, 108, 97, 99, 101]), (3, [67, 111, 110, 116, 101, 110, 116, 83, 99, 97, 110, 110, 105, 110, 103, 95, 77, 105, 120, 101, 100])]⟩,
  ⟨0x0201012b00000000060e2b3401040101, 0x5469746c65416c69676e6d656e7454797065, .enum 0x0101010000000000060e2b3401040101 [(0, [84, 105, 116, 108, 101, 65, 108, 105, 103, 110, 109, 101, 110, 116, 95, 76, 101, 102, 116]), (1, [84, 105, 116, 108, 101, 65, 108, 105, 103, 110, 109, 101, 110, 116, 95, 67, 101, 110, 116, 101, 114]), (2, [84, 105, 116, 108, 101, 65, 108, 105, 103, 110, 109, 101, 110, 116, 95, 82, 105, 103, 104, 116])]⟩,
  ⟨0x0201012c00000000060e2b3401040101, 0x415643436f6e74656e745363616e6e696e6754797065, .enum 0x0101010000000000060e2b3401040101 [(0, [65, 86, 67, 67, 111, 110, 116, 101, 110, 116, 83, 99, 97, 110, 110, 105, 110, 103, 95, 78, 111, 116, 75, 110, 111, 119, 110]), (1, [65, 86, 67, 67, 111, 110, 116, 101, 110, 116, 83, 99, 97, 110, 110, 105, 110, 103, 95, 80, 114, 111, 103, 114, 101, 115, 115, 105, 118, 101, 70, 114, 97, 109, 101, 80, 105, 99, 116, 117, 114, 101]), (2, [65, 86, 67, 67, 111, 110, 116, 101, 110, 116, 83, 99, 97, 110, 110, 105, 110, 103, 95, 73, 110, 116, 101, 114, 108, 97, 99, 101, 70, 105, 101, 108, 100, 80, 105, 99, 116, 117, 114, 101]), (3, [65, 86, 67, 67, 111, 110, 116, 101, 110, 116, 83, 99, 97, 110, 110, 105, 110, 103, 95, 73, 110, 116, 101, 114, 108, 97, 99, 101, 70, 114, 97, 109, 101, 80, 105, 99, 116, 117, 114, 101]), (4, [65, 86, 67, 67, 111, 110, 116, 101, 110, 116, 83, 99, 97, 110, 110, 105, 110, 103, 95, 73, 110, 116, 101, 114, 108, 97, 99, 101, 95, 70, 114, 97, 109, 101, 70, 105, 101, 108, 100, 80, 105, 99, 116, 117, 114, 101])]⟩,
  ⟨0x0201012d00000000060e2b3401040101, 0x4d5045473456697375616c436f646564436f6e74656e7454797065, .enum 0x0101010000000000060e2b3401040101 [(0, [77, 80, 69, 71, 52, 86, 105, 115, 117, 97, 108, 67, 111, 100, 101, 100, 67, 111, 110, 116, 101, 110, 116, 95, 85, 110, 107, 110, 111, 119, 110]), (1, [77, 80, 69, 71, 52, 86, 105, 115, 117, 97, 108, 67, 111, 100, 101, 100, 67, 111, 110, 116, 101, 110, 116, 95, 80, 114, 111, 103, 114, 101, 115, 115, 105, 118, 101]), (2, [77, 80, 69, 71, 52, 86, 105, 115, 117, 97, 108, 67, 111, 100, 101, 100, 67, 111, 110, 116, 101, 110, 116, 95, 73, 110, 116, 101, 114, 108, 97, 99, 101, 100]), (3, [77, 80, 69, 71, 52, 86, 105, 115, 117, 97, 108, 67, 111, 100, 101, 100, 67, 111, 110, 116, 101, 110, 116, 95, 77, 105, 120, 101, 100])]⟩,
  ⟨0x0103010000000000060e2b3401040101, 0x41554944, .record [([68, 97, 116, 97, 49], 0x0101030000000000060e2b3401040101), ([68, 97, 116, 97, 50], 0x0101020000000000060e2b3401040101), ([68, 97, 116, 97, 51], 0x0101020000000000060e2b3401040101), ([68, 97, 116, 97, 52], 0x0401080000000000060e2b3401040101)]⟩,
  ⟨0x0103020000000000060e2b3401040101, 0x4d6f62494454797065, .record [([83, 77, 80, 84, 69, 76, 97, 98, 101, 108], 0x0401020000000000060e2b3401040101), ([108, 101, 110, 103, 116, 104], 0x0101010000000000060e2b3401040101), ([105, 110, 115, 116, 97, 110, 99, 101, 72, 105, 103, 104], 0x0101010000000000060e2b3401040101), ([105, 110, 115, 116, 97, 110, 99, 101, 77, 105, 100], 0x0101010000000000060e2b3401040101), ([105, 110, 115, 116, 97, 110, 99, 101, 76, 111, 119], 0x0101010000000000060e2b3401040101), ([109, 97, 116, 101, 114, 105, 97, 108], 0x0103010000000000060e2b3401040101)]⟩,
  ⟨0x0301010000000000060e2b3401040101, 0x526174696f6e616c, .record [([78, 117, 109, 101, 114, 97, 116, 111, 114], 0x0101070000000000060e2b3401040101), ([68, 101, 110, 111, 109, 105, 110, 97, 116, 111, 114], 0x0101070000000000060e2b3401040101)]⟩,
  ⟨0x0301020000000000060e2b3401040101, 0x50726f6475637456657273696f6e, .record [([109, 97, 106, 111, 114], 0x0101020000000000060e2b3401040101), ([109, 105, 110, 111, 114], 0x0101020000000000060e2b3401040101), ([116, 101, 114, 116, 105, 97, 114, 121], 0x0101020000000000060e2b3401040101), ([112, 97, 116, 99, 104, 76, 101, 118, 101, 108], 0x0101020000000000060e2b3401040101), ([116, 121, 112, 101], 0x0201010100000000060e2b3401040101)]⟩,
  ⟨0x0301030000000000060e2b3401040101, 0x56657273696f6e54797065, .record [([109, 97, 106, 111, 114], 0x0101050000000000060e2b3401040101), ([109, 105, 110, 111, 114], 0x0101050000000000060e2b3401040101)]⟩,
  ⟨0x0301040000000000060e2b3401040101, 0x52474241436f6d706f6e656e74, .record [([67, 111, 100, 101], 0x0201010e00000000060e2b3401040101), ([83, 105, 122, 101], 0x0101010000000000060e2b3401040101)]⟩,
  ⟨0x0301050000000000060e2b3401040101, 0x44617465537472756374, .record [([121, 101, 97, 114], 0x0101060000000000060e2b3401040101), ([109, 111, 110, 116, 104], 0x0101010000000000060e2b3401040101), ([100, 97, 121], 0x0101010000000000060e2b3401040101)]⟩,
  ⟨0x0301060000000000060e2b3401040101, 0x54696d65537472756374, .record [([104, 111, 117, 114], 0x0101010000000000060e2b3401040101), ([109, 105, 110, 117, 116, 101], 0x0101010000000000060e2b3401040101), ([115, 101, 99, 111, 110, 100], 0x0101010000000000060e2b3401040101), ([102, 114, 97, 99, 116, 105, 111, 110], 0x0101010000000000060e2b3401040101)]⟩,
  ⟨0x0301070000000000060e2b3401040101, 0x54696d655374616d70, .record [([100, 97, 116, 101], 0x0301050000000000060e2b3401040101), ([116, 105, 109, 101], 0x0301060000000000060e2b3401040101)]⟩,
  ⟨0x0103030000000000060e2b3401040101, 0x61616655554944, .fixed 0x0101010000000000060e2b3401040101 16⟩,
  ⟨0x0401020000000000060e2b3401040101, 0x61616655496e743841727261793132, .fixed 0x0101010000000000060e2b3401040101 12⟩,
  ⟨0x0401080000000000060e2b3401040101, 0x61616655496e7438417272617938, .fixed 0x0101010000000000060e2b3401040101 8⟩,
  ⟨0x0402010000000000060e2b3401040101, 0x616166524742414c61796f7574, .fixed 0x0301040000000000060e2b3401040101 8⟩,
  ⟨0x0401150000000000060e2b3401040101, 0x616166555549444172726179, .var 0x0103030000000000060e2b3401040101⟩,
  ⟨0x0401010000000000060e2b3401040101, 0x61616655496e74384172726179, .var 0x0101010000000000060e2b3401040101⟩,
  ⟨0x0401030000000000060e2b3401040101, 0x616166496e7433324172726179, .var 0x0101070000000000060e2b3401040101⟩,
  ⟨0x0401040000000000060e2b3401040101, 0x616166496e7436344172726179, .var 0x0101080000000000060e2b3401040101⟩,
  ⟨0x0401050000000000060e2b3401040101, 0x616166537472696e674172726179, .var 0x0110010000000000060e2b3401040101⟩,
  ⟨0x0401060000000000060e2b3401040101, 0x616166415549444172726179, .var 0x0103010000000000060e2b3401040101⟩,
  ⟨0x0401070000000000060e2b3401040101, 0x616166506f736974696f6e4172726179, .var 0x0101010000000000060e2b3401040101⟩,
  ⟨0x0401090000000000060e2b3401040101, 0x61616655496e7433324172726179, .var 0x0101030000000000060e2b3401040101⟩,
  ⟨0x04010a0000000000060e2b3401040101, 0x6161664368616e6e656c5374617475734d6f64654172726179, .var 0x0201012500000000060e2b3401040101⟩,
  ⟨0x04010b0000000000060e2b3401040101, 0x61616655736572446174614d6f64654172726179, .var 0x0201012600000000060e2b3401040101⟩,
  ⟨0x0410010000000000060e2b3401040101, 0x6161664461746156616c7565, .var 0x0101010000000000060e2b3401040101⟩,
  ⟨0x0506010000000000060e2b3401040101, 0x6b4141465479706549445f436f6d706f6e656e745374726f6e675265666572656e6365566563746f72, .var 0x05020b0000000000060e2b3401040101⟩,
  ⟨0x0506020000000000060e2b3401040101, 0x6b4141465479706549445f436f6e74726f6c506f696e745374726f6e675265666572656e6365566563746f72, .var 0x05020d0000000000060e2b3401040101⟩,
  ⟨0x0506030000000000060e2b3401040101, 0x6b4141465479706549445f4964656e74696669636174696f6e5374726f6e675265666572656e6365566563746f72, .var 0x0502100000000000060e2b3401040101⟩,
  ⟨0x0506040000000000060e2b3401040101, 0x6b4141465479706549445f4c6f6361746f725374726f6e675265666572656e6365566563746f72, .var 0x0502120000000000060e2b3401040101⟩,
  ⟨0x0506050000000000060e2b3401040101, 0x6b4141465479706549445f4d6f62536c6f745374726f6e675265666572656e6365566563746f72, .var 0x0502140000000000060e2b3401040101⟩,
  ⟨0x0506060000000000060e2b3401040101, 0x6b4141465479706549445f5365676d656e745374726f6e675265666572656e6365566563746f72, .var 0x0502060000000000060e2b3401040101⟩,
  ⟨0x0506070000000000060e2b3401040101, 0x6b4141465479706549445f536f757263655265666572656e63655374726f6e675265666572656e6365566563746f72, .var 0x0502080000000000060e2b3401040101⟩,
  ⟨0x0506080000000000060e2b3401040101, 0x6b4141465479706549445f54616767656456616c75655374726f6e675265666572656e6365566563746f72, .var 0x05021a0000000000060e2b3401040101⟩,
  ⟨0x0506090000000000060e2b3401040101, 0x6b4141465479706549445f4b4c56446174615374726f6e675265666572656e6365566563746f72, .var 0x05021c0000000000060e2b3401040101⟩,
  ⟨0x05060a0000000000060e2b3401040101, 0x6b4141465479706549445f506172616d657465725374726f6e675265666572656e6365566563746f72, .var 0x0502160000000000060e2b3401040101⟩,
  ⟨0x05060b0000000000060e2b3401040101, 0x6b4141465479706549445f46696c6544657363726970746f725374726f6e675265666572656e6365566563746f72, .var 0x05021d0000000000060e2b3401040101⟩,
  ⟨0x05060c0000000000060e2b3401040101, 0x6b4141465479706549445f524946464368756e6b5374726f6e675265666572656e6365566563746f72, .var 0x05021e0000000000060e2b3401040101⟩,
  ⟨0x05060d0000000000060e2b3401040101, 0x6b4141465479706549445f44657363726970746976654f626a6563745374726f6e675265666572656e6365566563746f72, .var 0x0502220000000000060e2b3401040101⟩,
  ⟨0x05060e0000000000060e2b3401040101, 0x6b4141465479706549445f53756244657363726970746f725374726f6e675265666572656e6365566563746f72, .var 0x0502260000000000060e2b3401040101⟩,
  ⟨0x0504010000000000060e2b3401040101, 0x6b4141465479706549445f4f7065726174696f6e446566696e6974696f6e5765616b5265666572656e6365566563746f72, .var 0x0501070000000000060e2b3401040101⟩,
  ⟨0x0504020000000000060e2b3401040101, 0x6b4141465479706549445f54797065446566696e6974696f6e5765616b5265666572656e6365566563746f72, .var 0x0501090000000000060e2b3401040101⟩,
  ⟨0x0504030000000000060e2b3401040101, 0x6b4141465479706549445f44617461446566696e6974696f6e5765616b5265666572656e6365566563746f72, .var 0x0501030000000000060e2b3401040101⟩,
  ⟨0x0101200100000000060e2b3401040101, 0x616166506f736974696f6e54797065, .rename 0x0101080000000000060e2b3401040101⟩,
  ⟨0x0101200200000000060e2b3401040101, 0x6161664c656e67746854797065, .rename 0x0101080000000000060e2b3401040101⟩,
  ⟨0x0101200300000000060e2b3401040101, 0x6161664a5045475461626c65494454797065, .rename 0x0101070000000000060e2b3401040101⟩,
  ⟨0x0101230000000000060e2b3401040101, 0x61616650686173654672616d6554797065, .rename 0x0101070000000000060e2b3401040101⟩,
  ⟨0x0110020000000000060e2b3401040101, 0x616166537472696e67, .str 0x0110010000000000060e2b3401040101⟩,
  ⟨0x0110040000000000060e2b3401040101, 0x61616649534f37, .str 0x0110030000000000060e2b3401040101⟩,
  ⟨0x0410020000000000060e2b3401040101, 0x53747265616d, .plain .stream⟩,
  ⟨0x0410040000000000060e2b3401040101, 0x6161664f7061717565, .plain .opaque⟩,
  ⟨0x0202010100000000060e2b3401040101, 0x4f7065726174696f6e43617465676f727954797065, .ext [([2, 1, 1, 13, 1, 1, 0, 1, 6, 14, 43, 52, 4, 1, 1, 1], [79, 112, 101, 114, 97, 116, 105, 111, 110, 67, 97, 116, 101, 103, 111, 114, 121, 95, 69, 102, 102, 101, 99, 116])]⟩,
  ⟨0x0202010200000000060e2b3401040101, 0x5472616e73666572436861726163746572697374696354797065, .ext [([1, 1, 1, 4, 1, 1, 0, 0, 6, 14, 43, 52, 4, 1, 1, 1], [84, 114, 97, 110, 115, 102, 101, 114, 67, 104, 97, 114, 97, 99, 116, 101, 114, 105, 115, 116, 105, 99, 95, 73, 84, 85, 52, 55, 48, 95, 80, 65, 76]), ([1, 1, 1, 4, 2, 1, 0, 0, 6, 14, 43, 52, 4, 1, 1, 1], [84, 114, 97, 110, 115, 102, 101, 114, 67, 104, 97, 114, 97, 99, 116, 101, 114, 105, 115, 116, 105, 99, 95, 73, 84, 85, 55, 48, 57]), ([1, 1, 1, 4, 3, 1, 0, 0, 6, 14, 43, 52, 4, 1, 1, 1], [84, 114, 97, 110, 115, 102, 101, 114, 67, 104, 97, 114, 97, 99, 116, 101, 114, 105, 115, 116, 105, 99, 95, 83, 77, 80, 84, 69, 50, 52, 48, 77]), ([1, 1, 1, 4, 4, 1, 0, 0, 6, 14, 43, 52, 4, 1, 1, 1], [84, 114, 97, 110, 115, 102, 101, 114, 67, 104, 97, 114, 97, 99, 116, 101, 114, 105, 115, 116, 105, 99, 95, 50, 55, 52, 77, 95, 50, 57, 54, 77]), ([1, 1, 1, 4, 5, 1, 0, 0, 6, 14, 43, 52, 4, 1, 1, 1], [84, 114, 97, 110, 115, 102, 101, 114, 67, 104, 97, 114, 97, 99, 116, 101, 114, 105, 115, 116, 105, 99, 95, 73, 84, 85, 49, 51, 54, 49]), ([1, 1, 1, 4, 6, 1, 0, 0, 6, 14, 43, 52, 4, 1, 1, 1], [84, 114, 97, 110, 115, 102, 101, 114, 67, 104, 97, 114, 97, 99, 116, 101, 114, 105, 115, 116, 105, 99, 95, 108, 105, 110, 101, 97, 114]), ([1, 1, 1, 4, 7, 1, 0, 0, 6, 14, 43, 52, 4, 1, 1, 8], [84, 114, 97, 110, 115, 102, 101, 114, 67, 104, 97, 114, 97, 99, 116, 101, 114, 105, 115, 116, 105, 99, 95, 83, 77, 80, 84, 69, 95, 68, 67, 68, 77]), ([1, 1, 1, 4, 8, 1, 0, 0, 6, 14, 43, 52, 4, 1, 1, 13], [84, 114, 97, 110, 115, 102, 101, 114, 67, 104, 97, 114, 97, 99, 116, 101, 114, 105, 115, 116, 105, 99, 95, 73, 69, 67, 54, 49, 57, 54, 54, 50, 52, 95, 120, 118, 89, 67, 67]), ([1, 1, 1, 4, 9, 1, 0, 0, 6, 14, 43, 52, 4, 1, 1, 14], [84, 114, 97, 110, 115, 102, 101, 114, 67, 104, 97, 114, 97, 99, 116, 101, 114, 105, 115, 116, 105, 99, 95, 73, 84, 85, 50, 48, 50, 48]), ([1, 1, 1, 4, 10, 1, 0, 0, 6, 14, 43, 52, 4, 1, 1, 13], [84, 114, 97, 110, 115, 102, 101, 114, 67, 104, 97, 114, 97, 99, 116, 101, 114, 105, 115, 116, 105, 99, 95, 83, 77, 80, 84, 69, 83, 84, 50, 48, 56, 52]), ([1, 1, 1, 4, 11, 1, 0, 0, 6, 14, 43, 52, 4, 1, 1, 13], [84, 114, 97, 110, 115, 102, 101, 114, 67, 104, 97, 114, 97, 99, 116, 101, 114, 105, 115, 116, 105, 99, 95, 72, 76, 71, 95, 79, 69, 84, 70])]⟩,
  ⟨0x0202010300000000060e2b3401040101, 0x506c7567696e43617465676f727954797065, .ext [([2, 1, 1, 13, 1, 1, 0, 2, 6, 14, 43, 52, 4, 1, 1, 1], [80, 108, 117, 103, 105, 110, 67, 97, 116, 101, 103, 111, 114, 121, 95, 69, 102, 102, 101, 99, 116]), ([2, 1, 1, 13, 1, 1, 0, 3, 6, 14, 43, 52, 4, 1, 1, 1], [80, 108, 117, 103, 105, 110, 67, 97, 116, 101, 103, 111, 114, 121, 95, 67, 111, 100, 101, 99]), ([2, 1, 1, 13, 1, 1, 0, 4, 6, 14, 43, 52, 4, 1, 1, 1], [80, 108, 117, 103, 105, 110, 67, 97, 116, 101, 103, 111, 114, 121, 95, 73, 110, 116, 101, 114, 112, 111, 108, 97, 116, 105, 111, 110])]⟩,
  ⟨0x0202010400000000060e2b3401040101, 0x557361676554797065, .ext [([2, 1, 1, 13, 1, 1, 0, 5, 6, 14, 43, 52, 4, 1, 1, 1], [85, 115, 97, 103, 101, 95, 83, 117, 98, 67, 108, 105, 112]), ([2, 1, 1, 13, 1, 1, 0, 6, 6, 14, 43, 52, 4, 1, 1, 1], [85, 115, 97, 103, 101, 95, 65, 100, 106, 117, 115, 116, 101, 100, 67, 108, 105, 112]), ([2, 1, 1, 13, 1, 1, 0, 7, 6, 14, 43, 52, 4, 1, 1, 1], [85, 115, 97, 103, 101, 95, 84, 111, 112, 76, 101, 118, 101, 108]), ([2, 1, 1, 13, 1, 1, 0, 8, 6, 14, 43, 52, 4, 1, 1, 1], [85, 115, 97, 103, 101, 95, 76, 111, 119, 101, 114, 76, 101, 118, 101, 108]), ([2, 1, 1, 13, 1, 1, 0, 9, 6, 14, 43, 52, 4, 1, 1, 1], [85, 115, 97, 103, 101, 95, 84, 101, 109, 112, 108, 97, 116, 101])]⟩,
  ⟨0x0202010500000000060e2b3401040101, 0x436f6c6f725072696d617269657354797065, .ext [([1, 1, 1, 4, 1, 3, 0, 0, 6, 14, 43, 52, 4, 1, 1, 6], [67, 111, 108, 111, 114, 80, 114, 105, 109, 97, 114, 105, 101, 115, 95, 83, 77, 80, 84, 69, 49, 55, 48, 77]), ([1, 1, 1, 4, 2, 3, 0, 0, 6, 14, 43, 52, 4, 1, 1, 6], [67, 111, 108, 111, 114, 80, 114, 105, 109, 97, 114, 105, 101, 115, 95, 73, 84, 85, 52, 55, 48, 95, 80, 65, 76]), ([1, 1, 1, 4, 3, 3, 0, 0, 6, 14, 43, 52, 4, 1, 1, 6], [67, 111, 108, 111, 114, 80, 114, 105, 109, 97, 114, 105, 101, 115, 95, 73, 84, 85, 55, 48, 57]), ([1, 1, 1, 4, 4, 3, 0, 0, 6, 14, 43, 52, 4, 1, 1, 13], [67, 111, 108, 111, 114, 80, 114, 105, 109, 97, 114, 105, 101, 115, 95, 73, 84, 85, 50, 48, 50, 48]), ([1, 1, 1, 4, 5, 3, 0, 0, 6, 14, 43, 52, 4, 1, 1, 13], [67, 111, 108, 111, 114, 80, 114, 105, 109, 97, 114, 105, 101, 115, 95, 83, 77, 80, 84, 69, 95, 68, 67, 68, 77]), ([1, 1, 1, 4, 6, 3, 0, 0, 6, 14, 43, 52, 4, 1, 1, 13], [67, 111, 108, 111, 114, 80, 114, 105, 109, 97, 114, 105, 101, 115, 95, 80, 51, 68, 54, 53])]⟩,
  ⟨0x0202010600000000060e2b3401040101, 0x436f64696e674571756174696f6e7354797065, .ext [([1, 1, 1, 4, 1, 2, 0, 0, 6, 14, 43, 52, 4, 1, 1, 1], [67, 111, 100, 105, 110, 103, 69, 113, 117, 97, 116, 105, 111, 110, 115, 95, 73, 84, 85, 54, 48, 49]), ([1, 1, 1, 4, 2, 2, 0, 0, 6, 14, 43, 52, 4, 1, 1, 1], [67, 111, 100, 105, 110, 103, 69, 113, 117, 97, 116, 105, 111, 110, 115, 95, 73, 84, 85, 55, 48, 57]), ([1, 1, 1, 4, 3, 2, 0, 0, 6, 14, 43, 52, 4, 1, 1, 1], [67, 111, 100, 105, 110, 103, 69, 113, 117, 97, 116, 105, 111, 110, 115, 95, 83, 77, 80, 84, 69, 50, 52, 48, 77]), ([1, 1, 1, 4, 4, 2, 0, 0, 6, 14, 43, 52, 4, 1, 1, 13], [67, 111, 100, 105, 110, 103, 69, 113, 117, 97, 116, 105, 111, 110, 115, 95, 89, 67, 103, 67, 111]), ([1, 1, 1, 4, 5, 2, 0, 0, 6, 14, 43, 52, 4, 1, 1, 13], [67, 111, 100, 105, 110, 103, 69, 113, 117, 97, 116, 105, 111, 110, 115, 95, 71, 66, 82]), ([1, 1, 1, 4, 6, 2, 0, 0, 6, 14, 43, 52, 4, 1, 1, 13], [67, 111, 100, 105, 110, 103, 69, 113, 117, 97, 116, 105, 111, 110, 115, 95, 73, 84, 85, 50, 48, 50, 48, 95, 78, 67, 76])]⟩,
  ⟨0x0110010000000000060e2b3401040101, 0x616166436861726163746572, .char⟩,
  ⟨0x0110030000000000060e2b3401040101, 0x61616643686172, .plain .genericChar⟩,
  ⟨0x0410030000000000060e2b3401040101, 0x616166496e646972656374, .plain .indirect⟩,
  ⟨0x0403010000000000060e2b3401040101, 0x41554944536574, .set 0x0103010000000000060e2b3401040101⟩,
  ⟨0x0403020000000000060e2b3401040101, 0x55496e743332536574, .set 0x0101030000000000060e2b3401040101⟩,
  ⟨0x0505010000000000060e2b3401040101, 0x6b4141465479706549445f436c617373446566696e6974696f6e5374726f6e675265666572656e6365536574, .set 0x0502090000000000060e2b3401040101⟩,
  ⟨0x0505020000000000060e2b3401040101, 0x6b4141465479706549445f436f646563446566696e6974696f6e5374726f6e675265666572656e6365536574, .set 0x05020a0000000000060e2b3401040101⟩,
  ⟨0x0505030000000000060e2b3401040101, 0x6b4141465479706549445f436f6e7461696e6572446566696e6974696f6e5374726f6e675265666572656e6365536574, .set 0x05020c0000000000060e2b3401040101⟩,
  ⟨0x0505040000000000060e2b3401040101, 0x6b4141465479706549445f44617461446566696e6974696f6e5374726f6e675265666572656e6365536574, .set 0x05020e0000000000060e2b3401040101⟩,
  ⟨0x0505050000000000060e2b3401040101, 0x6b4141465479706549445f457373656e6365446174615374726f6e675265666572656e6365536574, .set 0x05020f0000000000060e2b3401040101⟩,
  ⟨0x0505060000000000060e2b3401040101, 0x6b4141465479706549445f496e746572706f6c6174696f6e446566696e6974696f6e5374726f6e675265666572656e6365536574, .set 0x0502110000000000060e2b3401040101⟩,
  ⟨0x0505070000000000060e2b3401040101, 0x6b4141465479706549445f4d6f625374726f6e675265666572656e6365536574, .set 0x0502130000000000060e2b3401040101⟩,
  ⟨0x0505080000000000060e2b3401040101, 0x6b4141465479706549445f4f7065726174696f6e446566696e6974696f6e5374726f6e675265666572656e6365536574, .set 0x0502150000000000060e2b3401040101⟩,
  ⟨0x0505090000000000060e2b3401040101, 0x6b4141465479706549445f506172616d65746572446566696e6974696f6e5374726f6e675265666572656e6365536574, .set 0x0502170000000000060e2b3401040101⟩,
  ⟨0x05050a0000000000060e2b3401040101, 0x6b4141465479706549445f506c7567696e446566696e6974696f6e5374726f6e675265666572656e6365536574, .set 0x0502180000000000060e2b3401040101⟩,
  ⟨0x05050b0000000000060e2b3401040101, 0x6b4141465479706549445f50726f7065727479446566696e6974696f6e5374726f6e675265666572656e6365536574, .set 0x0502190000000000060e2b3401040101⟩,
  ⟨0x05050c0000000000060e2b3401040101, 0x6b4141465479706549445f54797065446566696e6974696f6e5374726f6e675265666572656e6365536574, .set 0x05021b0000000000060e2b3401040101⟩,
  ⟨0x05050d0000000000060e2b3401040101, 0x6b4141465479706549445f4b4c5644617461446566696e6974696f6e5374726f6e675265666572656e6365536574, .set 0x0502200000000000060e2b3401040101⟩,
  ⟨0x05050e0000000000060e2b3401040101, 0x6b4141465479706549445f54616767656456616c7565446566696e6974696f6e5374726f6e675265666572656e6365536574, .set 0x0502210000000000060e2b3401040101⟩,
  ⟨0x05050f0000000000060e2b3401040101, 0x6b4141465479706549445f44657363726970746976654f626a6563745374726f6e675265666572656e6365536574, .set 0x0502220000000000060e2b3401040101⟩,
  ⟨0x05030d0000000000060e2b3401040101, 0x6b4141465479706549445f44617461446566696e6974696f6e5765616b5265666572656e6365536574, .set 0x0501030000000000060e2b3401040101⟩,
  ⟨0x05030e0000000000060e2b3401040101, 0x6b4141465479706549445f506172616d65746572446566696e6974696f6e5765616b5265666572656e6365536574, .set 0x0501080000000000060e2b3401040101⟩,
  ⟨0x05030f0000000000060e2b3401040101, 0x6b4141465479706549445f506c7567696e446566696e6974696f6e5765616b5265666572656e6365536574, .set 0x05010a0000000000060e2b3401040101⟩,
  ⟨0x0503100000000000060e2b3401040101, 0x6b4141465479706549445f50726f7065727479446566696e6974696f6e5765616b5265666572656e6365536574, .set 0x05010c0000000000060e2b3401040101⟩,
  ⟨0x0502010000000000060e2b3401040101, 0x6b4141465479706549445f436f6e74656e7453746f726167655374726f6e675265666572656e6365, .strong 0x0d01010101011800060e2b3402060101⟩,
  ⟨0x0502020000000000060e2b3401040101, 0x6b4141465479706549445f44696374696f6e6172795374726f6e675265666572656e6365, .strong 0x0d01010101012200060e2b3402060101⟩,
  ⟨0x0502030000000000060e2b3401040101, 0x6b4141465479706549445f457373656e636544657363726970746f725374726f6e675265666572656e6365, .strong 0x0d01010101012400060e2b3402060101⟩,
  ⟨0x0502040000000000060e2b3401040101, 0x6b4141465479706549445f4e6574776f726b4c6f6361746f725374726f6e675265666572656e6365, .strong 0x0d01010101013200060e2b3402060101⟩,
  ⟨0x0502050000000000060e2b3401040101, 0x6b4141465479706549445f4f7065726174696f6e47726f75705374726f6e675265666572656e6365, .strong 0x0d01010101010a00060e2b3402060101⟩,
  ⟨0x0502060000000000060e2b3401040101, 0x6b4141465479706549445f5365676d656e745374726f6e675265666572656e6365, .strong 0x0d01010101010300060e2b3402060101⟩,
  ⟨0x0502070000000000060e2b3401040101, 0x6b4141465479706549445f536f75726365436c69705374726f6e675265666572656e6365, .strong 0x0d01010101011100060e2b3402060101⟩,
  ⟨0x0502080000000000060e2b3401040101, 0x6b4141465479706549445f536f757263655265666572656e63655374726f6e675265666572656e6365, .strong 0x0d01010101011000060e2b3402060101⟩,
  ⟨0x0502090000000000060e2b3401040101, 0x6b4141465479706549445f436c617373446566696e6974696f6e5374726f6e675265666572656e6365, .strong 0x0d01010102010000060e2b3402060101⟩,
  ⟨0x05020a0000000000060e2b3401040101, 0x6b4141465479706549445f436f646563446566696e6974696f6e5374726f6e675265666572656e6365, .strong 0x0d01010101011f00060e2b3402060101⟩,
  ⟨0x05020b0000000000060e2b3401040101, 0x6b4141465479706549445f436f6d706f6e656e745374726f6e675265666572656e6365, .strong 0x0d01010101010200060e2b3402060101⟩,
  ⟨0x05020c0000000000060e2b3401040101, 0x6b4141465479706549445f436f6e7461696e6572446566696e6974696f6e5374726f6e675265666572656e6365, .strong 0x0d01010101012000060e2b3402060101⟩,
  ⟨0x05020d0000000000060e2b3401040101, 0x6b4141465479706549445f436f6e74726f6c506f696e745374726f6e675265666572656e6365, .strong 0x0d01010101011900060e2b3402060101⟩,
  ⟨0x05020e0000000000060e2b3401040101, 0x6b4141465479706549445f44617461446566696e6974696f6e5374726f6e675265666572656e6365, .strong 0x0d01010101011b00060e2b3402060101⟩,
  ⟨0x05020f0000000000060e2b3401040101, 0x6b4141465479706549445f457373656e6365446174615374726f6e675265666572656e6365, .strong 0x0d01010101012300060e2b3402060101⟩,
  ⟨0x0502100000000000060e2b3401040101, 0x6b4141465479706549445f4964656e74696669636174696f6e5374726f6e675265666572656e6365, .strong 0x0d01010101013000060e2b3402060101⟩,
  ⟨0x0502110000000000060e2b3401040101, 0x6b4141465479706549445f496e746572706f6c6174696f6e446566696e6974696f6e5374726f6e675265666572656e6365, .strong 0x0d01010101012100060e2b3402060101⟩,
  ⟨0x0502120000000000060e2b3401040101, 0x6b4141465479706549445f4c6f6361746f725374726f6e675265666572656e6365, .strong 0x0d01010101013100060e2b3402060101⟩,
  ⟨0x0502130000000000060e2b3401040101, 0x6b4141465479706549445f4d6f625374726f6e675265666572656e6365, .strong 0x0d01010101013400060e2b3402060101⟩,
  ⟨0x0502140000000000060e2b3401040101, 0x6b4141465479706549445f4d6f62536c6f745374726f6e675265666572656e6365, .strong 0x0d01010101013800060e2b3402060101⟩,
  ⟨0x0502150000000000060e2b3401040101, 0x6b4141465479706549445f4f7065726174696f6e446566696e6974696f6e5374726f6e675265666572656e6365, .strong 0x0d01010101011c00060e2b3402060101⟩,
  ⟨0x0502160000000000060e2b3401040101, 0x6b4141465479706549445f506172616d657465725374726f6e675265666572656e6365, .strong 0x0d01010101013c00060e2b3402060101⟩,
  ⟨0x0502170000000000060e2b3401040101, 0x6b4141465479706549445f506172616d65746572446566696e6974696f6e5374726f6e675265666572656e6365, .strong 0x0d01010101011d00060e2b3402060101⟩,
  ⟨0x0502180000000000060e2b3401040101, 0x6b4141465479706549445f506c7567696e446566696e6974696f6e5374726f6e675265666572656e6365, .strong 0x0d01010101011e00060e2b3402060101⟩,
  ⟨0x0502190000000000060e2b3401040101, 0x6b4141465479706549445f50726f7065727479446566696e6974696f6e5374726f6e675265666572656e6365, .strong 0x0d01010102020000060e2b3402060101⟩,
  ⟨0x05021a0000000000060e2b3401040101, 0x6b4141465479706549445f54616767656456616c75655374726f6e675265666572656e6365, .strong 0x0d01010101013f00060e2b3402060101⟩,
  ⟨0x05021b0000000000060e2b3401040101, 0x6b4141465479706549445f54797065446566696e6974696f6e5374726f6e675265666572656e6365, .strong 0x0d01010102030000060e2b3402060101⟩,
  ⟨0x05021c0000000000060e2b3401040101, 0x6b4141465479706549445f4b4c56446174615374726f6e675265666572656e6365, .strong 0x0d01010101014000060e2b3402060101⟩,
  ⟨0x05021d0000000000060e2b3401040101, 0x6b4141465479706549445f46696c6544657363726970746f725374726f6e675265666572656e6365, .strong 0x0d01010101012500060e2b3402060101⟩,
  ⟨0x05021e0000000000060e2b3401040101, 0x6b4141465479706549445f524946464368756e6b5374726f6e675265666572656e6365, .strong 0x0d01010101014f00060e2b3402060101⟩,
  ⟨0x05021f0000000000060e2b3401040101, 0x6b4141465479706549445f44657363726970746976654672616d65776f726b5374726f6e675265666572656e6365, .strong 0x0d01040100000000060e2b3402060101⟩,
  ⟨0x0502200000000000060e2b3401040101, 0x6b4141465479706549445f4b4c5644617461446566696e6974696f6e5374726f6e675265666572656e6365, .strong 0x0d01010101014d00060e2b3402060101⟩,
  ⟨0x0502210000000000060e2b3401040101, 0x6b4141465479706549445f54616767656456616c7565446566696e6974696f6e5374726f6e675265666572656e6365, .strong 0x0d01010101014c00060e2b3402060101⟩,
  ⟨0x0502220000000000060e2b3401040101, 0x6b4141465479706549445f44657363726970746976654f626a6563745374726f6e675265666572656e6365, .strong 0x0d01040000000000060e2b3402060101⟩,
  ⟨0x0502260000000000060e2b3401040101, 0x6b4141465479706549445f53756244657363726970746f725374726f6e675265666572656e6365, .strong 0x0d01010101015900060e2b3402060101⟩,
  ⟨0x0501010000000000060e2b3401040101, 0x436c617373446566696e6974696f6e5765616b5265666572656e6365, .weak 0x0d01010102010000060e2b3402060101⟩,
  ⟨0x0501020000000000060e2b3401040101, 0x436f6e7461696e6572446566696e6974696f6e5765616b5265666572656e6365, .weak 0x0d01010101012000060e2b3402060101⟩,
  ⟨0x0501030000000000060e2b3401040101, 0x44617461446566696e6974696f6e5765616b5265666572656e6365, .weak 0x0d01010101011b00060e2b3402060101⟩,
  ⟨0x0501050000000000060e2b3401040101, 0x496e746572706f6c6174696f6e446566696e6974696f6e5765616b5265666572656e6365, .weak 0x0d01010101012100060e2b3402060101⟩,
  ⟨0x0501060000000000060e2b3401040101, 0x4d6f625765616b5265666572656e6365, .weak 0x0d01010101013400060e2b3402060101⟩,
  ⟨0x0501070000000000060e2b3401040101, 0x4f7065726174696f6e446566696e6974696f6e5765616b5265666572656e6365, .weak 0x0d01010101011c00060e2b3402060101⟩,
  ⟨0x0501080000000000060e2b3401040101, 0x506172616d65746572446566696e6974696f6e5765616b5265666572656e6365, .weak 0x0d01010101011d00060e2b3402060101⟩,
  ⟨0x0501090000000000060e2b3401040101, 0x54797065446566696e6974696f6e5765616b5265666572656e6365, .weak 0x0d01010102030000060e2b3402060101⟩,
  ⟨0x05010a0000000000060e2b3401040101, 0x506c7567696e446566696e6974696f6e5765616b5265666572656e6365, .weak 0x0d01010101011e00060e2b3402060101⟩,
  ⟨0x05010b0000000000060e2b3401040101, 0x436f646563446566696e6974696f6e5765616b5265666572656e6365, .weak 0x0d01010101011f00060e2b3402060101⟩,
  ⟨0x05010c0000000000060e2b3401040101, 0x50726f7065727479446566696e6974696f6e5765616b5265666572656e6365, .weak 0x0d01010102020000060e2b3402060101⟩]

/-- The tables of model/ext/typedefs.py. -/
def extTypes : List TDef := [
  ⟨0x0201010500000000060e2b3401040101, 0x436f6c6f72536974696e6754797065, .enum 0x0101010000000000060e2b3401040101 [(5, [76, 105, 110, 101, 65, 108, 116, 101, 114, 110, 97, 116, 105, 110, 103]), (6, [86, 101, 114, 116, 105, 99, 97, 108, 77, 105, 100, 112, 111, 105, 110, 116])]⟩,
  ⟨0x3659b3424f1943169309f139434a94e5, 0x4176696450616e6e65724b696e6454797065, .enum 0x0101030000000000060e2b3401040101 [(1, [65, 118, 105, 100, 80, 97, 110, 110, 101, 114, 75, 105, 110, 100, 95, 83, 116, 101, 114, 101, 111]), (2, [65, 118, 105, 100, 80, 97, 110, 110, 101, 114, 75, 105, 110, 100, 95, 76, 67, 82]), (3, [65, 118, 105, 100, 80, 97, 110, 110, 101, 114, 75, 105, 110, 100, 95, 81, 117, 97, 100]), (4, [65, 118, 105, 100, 80, 97, 110, 110, 101, 114, 75, 105, 110, 100, 95, 76, 67, 82, 83]), (5, [65, 118, 105, 100, 80, 97, 110, 110, 101, 114, 75, 105, 110, 100, 95, 53, 100, 111, 116, 48]), (6, [65, 118, 105, 100, 80, 97, 110, 110, 101, 114, 75, 105, 110, 100, 95, 53, 100, 111, 116, 49]), (7, [65, 118, 105, 100, 80, 97, 110, 110, 101, 114, 75, 105, 110, 100, 95, 54, 100, 111, 116, 48]), (8, [65, 118, 105, 100, 80, 97, 110, 110, 101, 114, 75, 105, 110, 100, 95, 54, 100, 111, 116, 49]), (9, [65, 118, 105, 100, 80, 97, 110, 110, 101, 114, 75, 105, 110, 100, 95, 55, 100, 111, 116, 48]), (10, [65, 118, 105, 100, 80, 97, 110, 110, 101, 114, 75, 105, 110, 100, 95, 55, 100, 111, 116, 49])]⟩,
  ⟨0x0e04020101010000060e2b3401040101, 0x41766964457373656e6365456c656d656e7453697a654b696e64, .enum 0x0101010000000000060e2b3401040101 [(0, [65, 118, 105, 100, 69, 115, 115, 101, 110, 99, 101, 69, 108, 101, 109, 101, 110, 116, 83, 105, 122, 101, 75, 105, 110, 100, 95, 85, 110, 107, 110, 111, 119, 110]), (1, [65, 118, 105, 100, 69, 115, 115, 101, 110, 99, 101, 69, 108, 101, 109, 101, 110, 116, 83, 105, 122, 101, 75, 105, 110, 100, 95, 67, 66, 69]), (2, [65, 118, 105, 100, 69, 115, 115, 101, 110, 99, 101, 69, 108, 101, 109, 101, 110, 116, 83, 105, 122, 101, 75, 105, 110, 100, 95, 86, 66, 69])]⟩,
  ⟨0x0e04030102000000060e2b3401040101, 0x426f756e6473426f78, .record [([80, 111, 115, 105, 116, 105, 111, 110, 88], 0x0301010000000000060e2b3401040101), ([80, 111, 115, 105, 116, 105, 111, 110, 89], 0x0301010000000000060e2b3401040101), ([87, 105, 100, 116, 104], 0x0301010000000000060e2b3401040101), ([72, 101, 105, 103, 104, 116], 0x0301010000000000060e2b3401040101)]⟩,
  ⟨0x0e04030101000000060e2b3401040101, 0x417669644d616e6966657374456c656d656e74, .record [([100, 105, 100], 0x0101010000000000060e2b3401040101), ([115, 100, 105, 100], 0x0101010000000000060e2b3401040101)]⟩,
  ⟨0xc4c670c9bd4411d380e9006008143e6f, 0x457175616c697a6174696f6e42616e64, .record [([116, 121, 112, 101], 0x0103010000000000060e2b3401040101), ([102, 114, 101, 113, 117, 101, 110, 99, 121], 0x0101030000000000060e2b3401040101), ([103, 97, 105, 110], 0x0101030000000000060e2b3401040101), ([113], 0x0101030000000000060e2b3401040101), ([101, 110, 97, 98, 108, 101], 0x0104010000000000060e2b3401040101)]⟩,
  ⟨0xe96e6d43c38311d3a069006094eb75cb, 0x524742436f6c6f72, .record [([114, 101, 100], 0x0101020000000000060e2b3401040101), ([103, 114, 101, 101, 110], 0x0101020000000000060e2b3401040101), ([98, 108, 117, 101], 0x0101020000000000060e2b3401040101)]⟩,
  ⟨0x4e4d8f5feefd11d39ff50004ac969f50, 0x417564696f5375697465506c7567496e4368756e6b, .record [([86, 101, 114, 115, 105, 111, 110], 0x0101030000000000060e2b3401040101), ([77, 97, 110, 117, 102, 97, 99, 116, 117, 114, 101, 114, 73, 68], 0x0f96cb412aa811d4a00f0004ac969f50), ([80, 114, 111, 100, 117, 99, 116, 73, 68], 0x0f96cb412aa811d4a00f0004ac969f50), ([80, 108, 117, 103, 73, 110, 73, 68], 0x0f96cb412aa811d4a00f0004ac969f50), ([67, 104, 117, 110, 107, 73, 68], 0x0f96cb412aa811d4a00f0004ac969f50), ([78, 97, 109, 101], 0x3271a34ff3a111d39ff50004ac969f50), ([67, 104, 117, 110, 107, 68, 97, 116, 97, 85, 73, 68], 0x0103010000000000060e2b3401040101)]⟩,
  ⟨0x8bc427326bab11d380cf006008143e6f, 0x41766964426f756e6473, .fixed 0x0101010000000000060e2b3401040101 48⟩,
  ⟨0x8bc427336bab11d380cf006008143e6f, 0x41766964436f6c6f72, .fixed 0x0101010000000000060e2b3401040101 68⟩,
  ⟨0x8bc4272f6bab11d380cf006008143e6f, 0x4176696443726f70, .fixed 0x0101010000000000060e2b3401040101 32⟩,
  ⟨0x09997778960e11d3a04e006094eb75cb, 0x41766964476c6f62616c4b65794672616d65, .fixed 0x0101010000000000060e2b3401040101 16⟩,
  ⟨0x8bc4272e6bab11d380cf006008143e6f, 0x41766964506f736974696f6e, .fixed 0x0101010000000000060e2b3401040101 24⟩,
  ⟨0x8bc427306bab11d380cf006008143e6f, 0x417669645363616c65, .fixed 0x0101010000000000060e2b3401040101 16⟩,
  ⟨0x8bc427316bab11d380cf006008143e6f, 0x417669645370696c6c53757072657373, .fixed 0x0101010000000000060e2b3401040101 8⟩,
  ⟨0x0f96cb412aa811d4a00f0004ac969f50, 0x41766964537472696e6734, .fixed 0x0101010000000000060e2b3401040101 4⟩,
  ⟨0x3271a34ff3a111d39ff50004ac969f50, 0x4176696457696465537472696e673332, .fixed 0x0101020000000000060e2b3401040101 32⟩,
  ⟨0x4e4d8f60eefd11d39ff50004ac969f50, 0x417564696f537569746550494368756e6b4172726179, .var 0x4e4d8f5feefd11d39ff50004ac969f50⟩,
  ⟨0x5cf19cafef8311d39ff50004ac969f50, 0x417564696f537569746550494368756e6b44617461, .var 0x0101010000000000060e2b3401040101⟩,
  ⟨0xccaa73d1f53811d3a081006094eb75cb, 0x417669644261674f6642697473, .var 0x0101010000000000060e2b3401040101⟩,
  ⟨0x0e04040201000000060e2b3401040101, 0x417669644d616e69666573744172726179, .var 0x0e04030101000000060e2b3401040101⟩,
  ⟨0xb56a2ec2fc3b11d39ff70004ac969f50, 0x41766964544b4d4e547261636b6564506172616d4172726179, .var 0xf9a74d0a7b3011d3a044006094eb75cb⟩,
  ⟨0xb56a2ec3fc3b11d39ff70004ac969f50, 0x41766964544b4d4e547261636b6572446174614172726179, .var 0xf9a74d0a7b3011d3a044006094eb75cb⟩,
  ⟨0xc4c670cabd4411d380e9006008143e6f, 0x457175616c697a6174696f6e42616e644172726179, .var 0xc4c670c9bd4411d380e9006008143e6f⟩,
  ⟨0x05060e0000000000060e2b3401040101, 0x6b4141465479706549445f53756244657363726970746f725374726f6e675265666572656e6365566563746f72, .var 0x0502260000000000060e2b3401040101⟩,
  ⟨0x0202010600000000060e2b3401040101, 0x436f64696e674571756174696f6e7354797065, .ext [([1, 5, 4, 14, 1, 2, 0, 0, 6, 14, 43, 52, 4, 1, 1, 1], [67, 111, 100, 105, 110, 103, 69, 113, 117, 97, 116, 105, 111, 110, 115, 95, 73, 84, 85, 50, 48, 50, 48])]⟩,
  ⟨0x0202010500000000060e2b3401040101, 0x436f6c6f725072696d617269657354797065, .ext [([1, 1, 1, 4, 4, 3, 0, 0, 6, 14, 43, 52, 4, 1, 1, 13], [67, 111, 108, 111, 114, 80, 114, 105, 109, 97, 114, 105, 101, 115, 95, 73, 84, 85, 50, 48, 50, 48]), ([1, 5, 4, 14, 1, 3, 0, 0, 6, 14, 43, 52, 4, 1, 1, 1], [67, 111, 108, 111, 114, 80, 114, 105, 109, 97, 114, 105, 101, 115, 95, 83, 77, 80, 84, 69, 95, 82, 80, 52, 51, 49]), ([1, 5, 4, 14, 2, 3, 0, 0, 6, 14, 43, 52, 4, 1, 1, 1], [67, 111, 108, 111, 114, 80, 114, 105, 109, 97, 114, 105, 101, 115, 95, 83, 111, 110, 121, 95, 83, 71, 97, 109, 117, 116, 51]), ([1, 5, 4, 14, 3, 3, 0, 0, 6, 14, 43, 52, 4, 1, 1, 1], [67, 111, 108, 111, 114, 80, 114, 105, 109, 97, 114, 105, 101, 115, 95, 83, 111, 110, 121, 95, 83, 71, 97, 109, 117, 116, 51, 95, 67, 105, 110, 101])]⟩,
  ⟨0x0202010200000000060e2b3401040101, 0x5472616e73666572436861726163746572697374696354797065, .ext [([1, 5, 4, 14, 1, 1, 0, 0, 6, 14, 43, 52, 4, 1, 1, 1], [84, 114, 97, 110, 115, 102, 101, 114, 67, 104, 97, 114, 97, 99, 116, 101, 114, 105, 115, 116, 105, 99, 95, 68, 80, 88, 80, 114, 105, 110, 116, 105, 110, 103, 68, 101, 110, 115, 105, 116, 121]), ([1, 5, 4, 14, 2, 1, 0, 0, 6, 14, 43, 52, 4, 1, 1, 1], [84, 114, 97, 110, 115, 102, 101, 114, 67, 104, 97, 114, 97, 99, 116, 101, 114, 105, 115, 116, 105, 99, 95, 68, 80, 88, 76, 111, 103, 97, 114, 105, 116, 104, 109, 105, 99]), ([1, 5, 4, 14, 3, 1, 0, 0, 6, 14, 43, 52, 4, 1, 1, 1], [84, 114, 97, 110, 115, 102, 101, 114, 67, 104, 97, 114, 97, 99, 116, 101, 114, 105, 115, 116, 105, 99, 95, 83, 82, 71, 66]), ([1, 5, 4, 14, 5, 1, 0, 0, 6, 14, 43, 52, 4, 1, 1, 1], [84, 114, 97, 110, 115, 102, 101, 114, 67, 104, 97, 114, 97, 99, 116, 101, 114, 105, 115, 116, 105, 99, 95, 83, 77, 80, 84, 69, 95, 82, 80, 52, 51, 49]), ([1, 5, 4, 14, 6, 1, 0, 0, 6, 14, 43, 52, 4, 1, 1, 1], [84, 114, 97, 110, 115, 102, 101, 114, 67, 104, 97, 114, 97, 99, 116, 101, 114, 105, 115, 116, 105, 99, 95, 83, 77, 80, 84, 69, 95, 83, 84, 50, 48, 56, 52]), ([1, 5, 4, 14, 8, 1, 0, 0, 6, 14, 43, 52, 4, 1, 1, 1], [84, 114, 97, 110, 115, 102, 101, 114, 67, 104, 97, 114, 97, 99, 116, 101, 114, 105, 115, 116, 105, 99, 95, 65, 82, 73, 66, 95, 66, 54, 55]), ([1, 5, 4, 14, 10, 1, 0, 0, 6, 14, 43, 52, 4, 1, 1, 1], [84, 114, 97, 110, 115, 102, 101, 114, 67, 104, 97, 114, 97, 99, 116, 101, 114, 105, 115, 116, 105, 99, 95, 73, 84, 85, 55, 48, 57, 95, 69, 120, 116, 101, 110, 100, 101, 100, 50]), ([1, 4, 6, 14, 1, 1, 5, 6, 6, 14, 43, 52, 4, 1, 1, 6], [84, 114, 97, 110, 115, 102, 101, 114, 67, 104, 97, 114, 97, 99, 116, 101, 114, 105, 115, 116, 105, 99, 95, 83, 111, 110, 121, 95, 83, 76, 111, 103, 51]), ([0, 0, 23, 14, 1, 0, 1, 1, 6, 14, 43, 52, 4, 1, 1, 12], [84, 114, 97, 110, 115, 102, 101, 114, 67, 104, 97, 114, 97, 99, 116, 101, 114, 105, 115, 116, 105, 99, 95, 65, 82, 82, 73, 95, 76, 111, 103, 67])]⟩,
  ⟨0xf9a74d0a7b3011d3a044006094eb75cb, 0x417669645374726f6e675265666572656e6365, .strong 0x0d01010101010100060e2b3402060101⟩,
  ⟨0x0502260000000000060e2b3401040101, 0x6b4141465479706549445f53756244657363726970746f725374726f6e675265666572656e6365, .strong 0x0d01010101015900060e2b3402060101⟩]

/-- The definitions, after the elements of the extensions. (Used in `library`: metadict.py:349-351, 386-396.) -/
def libraryHeap : List TDef := [
  ⟨0x0502280000000000060e2b3401040101, 0x4865616465725374726f6e67526566656e6365, .strong 0x0d01010101012f00060e2b3402060101⟩,
  ⟨0x0502270000000000060e2b3401040101, 0x4d65746144696374696f6e6172795374726f6e675265666572656e6365, .strong 0x0d01010102250000060e2b3402060101⟩,
  ⟨0x0101010000000000060e2b3401040101, 0x61616655496e7438, .int 1 false⟩,
  ⟨0x0101020000000000060e2b3401040101, 0x61616655496e743136, .int 2 false⟩,
  ⟨0x0101030000000000060e2b3401040101, 0x61616655496e743332, .int 4 false⟩,
  ⟨0x0101040000000000060e2b3401040101, 0x61616655496e743634, .int 8 false⟩,
  ⟨0x0101050000000000060e2b3401040101, 0x616166496e7438, .int 1 true⟩,
  ⟨0x0101060000000000060e2b3401040101, 0x616166496e743136, .int 2 true⟩,
  ⟨0x0101070000000000060e2b3401040101, 0x616166496e743332, .int 4 true⟩,
  ⟨0x0101080000000000060e2b3401040101, 0x616166496e743634, .int 8 true⟩,
  ⟨0x0104010000000000060e2b3401040101, 0x426f6f6c65616e, .enum 0x0101010000000000060e2b3401040101 [(0, [70, 97, 108, 115, 101]), (1, [84, 114, 117, 101])]⟩,
  ⟨0x0201010100000000060e2b3401040101, 0x50726f6475637452656c6561736554797065, .enum 0x0101010000000000060e2b3401040101 [(0, [86, 101, 114, 115, 105, 111, 110, 85, 110, 107, 110, 111, 119, 110]), (1, [86, 101, 114, 115, 105, 111, 110, 82, 101, 108, 101, 97, 115, 101, 100]), (2, [86, 101, 114, 115, 105, 111, 110, 68, 101, 98, 117, 103]), (3, [86, 101, 114, 115, 105, 111, 110, 80, 97, 116, 99, 104, 101, 100]), (4, [86, 101, 114, 115, 105, 111, 110, 66, 101, 116, 97]), (5, [86, 101, 114, 115, 105, 111, 110, 80, 114, 105, 118, 97, 116, 101, 66, 117, 105, 108, 100])]⟩,
  ⟨0x0201010200000000060e2b3401040101, 0x54617065466f726d617454797065, .enum 0x0101010000000000060e2b3401040101 [(0, [84, 97, 112, 101, 70, 111, 114, 109, 97, 116, 78, 117, 108, 108]), (1, [66, 101, 116, 97, 99, 97, 109, 70, 111, 114, 109, 97, 116]), (2, [66, 101, 116, 97, 99, 97, 109, 83, 80, 70, 111, 114, 109, 97, 116]), (3, [86, 72, 83, 70, 111, 114, 109, 97, 116]), (4, [83, 86, 72, 83, 70, 111, 114, 109, 97, 116]), (5, [56, 109, 109, 70, 111, 114, 109, 97, 116]), (6, [72, 105, 56, 70, 111, 114, 109, 97, 116])]⟩,
  ⟨0x0201010300000000060e2b3401040101, 0x566964656f5369676e616c54797065, .enum 0x0101010000000000060e2b3401040101 [(0, [86, 105, 100, 101, 111, 83, 105, 103, 110, 97, 108, 78, 117, 108, 108]), (1, [78, 84, 83, 67, 83, 105, 103, 110, 97, 108]), (2, [80, 65, 76, 83, 105, 103, 110, 97, 108])]⟩,
  ⟨0x0201010400000000060e2b3401040101, 0x546170654361736554797065, .enum 0x0101010000000000060e2b3401040101 [(0, [84, 97, 112, 101, 67, 97, 115, 101, 78, 117, 108, 108]), (1, [84, 104, 114, 101, 101, 70, 111, 117, 114, 116, 104, 73, 110, 99, 104, 86, 105, 100, 101, 111, 84, 97, 112, 101]), (2, [86, 72, 83, 86, 105, 100, 101, 111, 84, 97, 112, 101]), (3, [56, 109, 109, 86, 105, 100, 101, 111, 84, 97, 112, 101]), (4, [66, 101, 116, 97, 99, 97, 109, 86, 105, 100, 101, 111, 84, 97, 112, 101]), (5, [67, 111, 109, 112, 97, 99, 116, 67, 97, 115, 115, 101, 116, 116, 101]), (6, [68, 65, 84, 67, 97, 114, 116, 114, 105, 100, 103, 101]), (7, [78, 97, 103, 114, 97, 65, 117, 100, 105, 111, 84, 97, 112, 101])]⟩,
  ⟨0x0201010500000000060e2b3401040101, 0x436f6c6f72536974696e6754797065, .enum 0x0101010000000000060e2b3401040101 [(0, [67, 111, 83, 105, 116, 105, 110, 103]), (1, [65, 118, 101, 114, 97, 103, 105, 110, 103]), (2, [84, 104, 114, 101, 101, 84, 97, 112]), (3, [81, 117, 105, 110, 99, 117, 110, 120]), (4, [82, 101, 99, 54, 48, 49]), (5, [76, 105, 110, 101, 65, 108, 116, 101, 114, 110, 97, 116, 105, 110, 103]), (6, [86, 101, 114, 116, 105, 99, 97, 108, 77, 105, 100, 112, 111, 105, 110, 116]), (255, [85, 110, 107, 110, 111, 119, 110, 83, 105, 116, 105, 110, 103])]⟩,
  ⟨0x0201010600000000060e2b3401040101, 0x4564697448696e7454797065, .enum 0x0101010000000000060e2b3401040101 [(0, [78, 111, 69, 100, 105, 116, 72, 105, 110, 116]), (1, [80, 114, 111, 112, 111, 114, 116, 105, 111, 110, 97, 108]), (2, [82, 101, 108, 97, 116, 105, 118, 101, 76, 101, 102, 116]), (3, [82, 101, 108, 97, 116, 105, 118, 101, 82, 105, 103, 104, 116]), (4, [82, 101, 108, 97, 116, 105, 118, 101, 70, 105, 120, 101, 100])]⟩,
  ⟨0x0201010700000000060e2b3401040101, 0x4661646554797065, .enum 0x0101010000000000060e2b3401040101 [(0, [70, 97, 100, 101, 78, 111, 110, 101]), (1, [70, 97, 100, 101, 76, 105, 110, 101, 97, 114, 65, 109, 112]), (2, [70, 97, 100, 101, 76, 105, 110, 101, 97, 114, 80, 111, 119, 101, 114])]⟩,
  ⟨0x0201010800000000060e2b3401040101, 0x4c61796f757454797065, .enum 0x0101010000000000060e2b3401040101 [(0, [70, 117, 108, 108, 70, 114, 97, 109, 101]), (1, [83, 101, 112, 97, 114, 97, 116, 101, 70, 105, 101, 108, 100, 115]), (2, [79, 110, 101, 70, 105, 101, 108, 100]), (3, [77, 105, 120, 101, 100, 70, 105, 101, 108, 100, 115]), (4, [83, 101, 103, 109, 101, 110, 116, 101, 100, 70, 114, 97, 109, 101])]⟩,
  ⟨0x0201010900000000060e2b3401040101, 0x5443536f75726365, .enum 0x0101010000000000060e2b3401040101 [(0, [84, 105, 109, 101, 99, 111, 100, 101, 76, 84, 67]), (1, [84, 105, 109, 101, 99, 111, 100, 101, 86, 73, 84, 67])]⟩,
  ⟨0x0201010a00000000060e2b3401040101, 0x50756c6c646f776e446972656374696f6e54797065, .enum 0x0101010000000000060e2b3401040101 [(0, [84, 97, 112, 101, 84, 111, 70, 105, 108, 109, 83, 112, 101, 101, 100]), (1, [70, 105, 108, 109, 84, 111, 84, 97, 112, 101, 83, 112, 101, 101, 100])]⟩,
  ⟨0x0201010b00000000060e2b3401040101, 0x50756c6c646f776e4b696e6454797065, .enum 0x0101010000000000060e2b3401040101 [(0, [84, 119, 111, 84, 104, 114, 101, 101, 80, 68]), (1, [80, 65, 76, 80, 68]), (2, [79, 110, 101, 84, 111, 79, 110, 101, 78, 84, 83, 67]), (3, [79, 110, 101, 84, 111, 79, 110, 101, 80, 65, 76]), (4, [86, 105, 100, 101, 111, 84, 97, 112, 78, 84, 83, 67]), (5, [79, 110, 101, 84, 111, 79, 110, 101, 72, 68, 83, 105, 120, 116, 121]), (6, [84, 119, 101, 110, 116, 121, 70, 111, 117, 114, 84, 111, 83, 105, 120, 116, 121, 80, 68]), (7, [84, 119, 111, 84, 111, 79, 110, 101, 80, 68])]⟩,
  ⟨0x0201010c00000000060e2b3401040101, 0x4564676554797065, .enum 0x0101010000000000060e2b3401040101 [(0, [69, 116, 78, 117, 108, 108]), (1, [69, 116, 75, 101, 121, 99, 111, 100, 101]), (2, [69, 116, 69, 100, 103, 101, 110, 117, 109, 52]), (3, [69, 116, 69, 100, 103, 101, 110, 117, 109, 53]), (8, [69, 116, 72, 101, 97, 100, 101, 114, 83, 105, 122, 101])]⟩,
  ⟨0x0201010d00000000060e2b3401040101, 0x46696c6d54797065, .enum 0x0101010000000000060e2b3401040101 [(0, [70, 116, 78, 117, 108, 108]), (1, [70, 116, 51, 53, 77, 77]), (2, [70, 116, 49, 54, 77, 77]), (3, [70, 116, 56, 77, 77]), (4, [70, 116, 54, 53, 77, 77])]⟩,
  ⟨0x0201010e00000000060e2b3401040101, 0x52474241436f6d706f6e656e744b696e64, .enum 0x0101010000000000060e2b3401040101 [(48, [67, 111, 109, 112, 78, 111, 110, 101]), (65, [67, 111, 109, 112, 65, 108, 112, 104, 97]), (66, [67, 111, 109, 112, 66, 108, 117, 101]), (70, [67, 111, 109, 112, 70, 105, 108, 108]), (71, [67, 111, 109, 112, 71, 114, 101, 101, 110]), (80, [67, 111, 109, 112, 80, 97, 108, 101, 116, 116, 101]), (82, [67, 111, 109, 112, 82, 101, 100]), (0, [67, 111, 109, 112, 78, 117, 108, 108]), (114, [67, 111, 109, 112, 82, 101, 100, 76, 83, 66, 115]), (103, [67, 111, 109, 112, 71, 114, 101, 101, 110, 76, 83, 66, 115]), (98, [67, 111, 109, 112, 66, 108, 117, 101, 76, 83, 66, 115]), (97, [67, 111, 109, 112, 65, 108, 112, 104, 97, 76, 83, 66, 115]), (85, [67, 111, 109, 112, 67, 111, 108, 111, 114, 68, 105, 102, 102, 101, 114, 101, 110, 99, 101, 85]), (86, [67, 111, 109, 112, 67, 111, 108, 111, 114, 68, 105, 102, 102, 101, 114, 101, 110, 99, 101, 86]), (87, [67, 111, 109, 112, 67, 111, 109, 112, 111, 115, 105, 116, 101]), (88, [67, 111, 109, 112, 78, 111, 110, 67, 111, 83, 105, 116, 101, 100, 76, 117, 109, 97]), (89, [67, 111, 109, 112, 76, 117, 109, 97]), (90, [67, 111, 109, 112, 68, 101, 112, 116, 104]), (117, [67, 111, 109, 112, 67, 111, 108, 111, 114, 68, 105, 102, 102, 101, 114, 101, 110, 99, 101, 85, 76, 83, 66, 115]), (118, [67, 111, 109, 112, 67, 111, 108, 111, 114, 68, 105, 102, 102, 101, 114, 101, 110, 99, 101, 86, 76, 83, 66, 115]), (119, [67, 111, 109, 112, 67, 111, 109, 112, 111, 115, 105, 116, 101, 76, 83, 66, 115]), (120, [67, 111, 109, 112, 78, 111, 110, 67, 111, 83, 105, 116, 101, 100, 76, 117, 109, 97, 76, 83, 66, 115]), (121, [67, 111, 109, 112, 76, 117, 109, 97, 76, 83, 66, 115]), (122, [67, 111, 109, 112, 68, 101, 112, 116, 104, 76, 83, 66, 115]), (216, [67, 111, 109, 112, 67, 111, 108, 111, 114, 88]), (217, [67, 111, 109, 112, 67, 111, 108, 111, 114, 89]), (218, [67, 111, 109, 112, 67, 111, 108, 111, 114, 90])]⟩,
  ⟨0x0201010f00000000060e2b3401040101, 0x5265666572656e636554797065, .enum 0x0101010000000000060e2b3401040101 [(0, [82, 101, 102, 76, 105, 109, 105, 116, 77, 105, 110, 105, 109, 117, 109]), (1, [82, 101, 102, 76, 105, 109, 105, 116, 77, 97, 120, 105, 109, 117, 109]), (2, [82, 101, 102, 77, 105, 110, 105, 109, 117, 109]), (3, [82, 101, 102, 77, 97, 120, 105, 109, 117, 109]), (4, [82, 101, 102, 69, 110, 117, 109, 118, 97, 108, 117, 101])]⟩,
  ⟨0x0201012000000000060e2b3401040101, 0x416c7068615472616e73706172656e637954797065, .enum 0x0101010000000000060e2b3401040101 [(0, [77, 105, 110, 86, 97, 108, 117, 101, 84, 114, 97, 110, 115, 112, 97, 114, 101, 110, 116]), (1, [77, 97, 120, 86, 97, 108, 117, 101, 84, 114, 97, 110, 115, 112, 97, 114, 101, 110, 116])]⟩,
  ⟨0x0201012100000000060e2b3401040101, 0x4669656c644e756d626572, .enum 0x0101010000000000060e2b3401040101 [(0, [85, 110, 115, 112, 101, 99, 105, 102, 105, 101, 100, 70, 105, 101, 108, 100]), (1, [70, 105, 101, 108, 100, 79, 110, 101]), (2, [70, 105, 101, 108, 100, 84, 119, 111])]⟩,
  ⟨0x0201012200000000060e2b3401040101, 0x456c656374726f5370617469616c466f726d756c6174696f6e, .enum 0x0101010000000000060e2b3401040101 [(0, [69, 108, 101, 99, 116, 114, 111, 83, 112, 97, 116, 105, 97, 108, 70, 111, 114, 109, 117, 108, 97, 116, 105, 111, 110, 95, 68, 101, 102, 97, 117, 108, 116]), (1, [69, 108, 101, 99, 116, 114, 111, 83, 112, 97, 116, 105, 97, 108, 70, 111, 114, 109, 117, 108, 97, 116, 105, 111, 110, 95, 84, 119, 111, 67, 104, 97, 110, 110, 101, 108, 77, 111, 100, 101]), (2, [69, 108, 101, 99, 116, 114, 111, 83, 112, 97, 116, 105, 97, 108, 70, 111, 114, 109, 117, 108, 97, 116, 105, 111, 110, 95, 83, 105, 110, 103, 108, 101, 67, 104, 97, 110, 110, 101, 108, 77, 111, 100, 101]), (3, [69, 108, 101, 99, 116, 114, 111, 83, 112, 97, 116, 105, 97, 108, 70, 111, 114, 109, 117, 108, 97, 116, 105, 111, 110, 95, 80, 114, 105, 109, 97, 114, 121, 83, 101, 99, 111, 110, 100, 97, 114, 121, 77, 111, 100, 101]), (4, [69, 108, 101, 99, 116, 114, 111, 83, 112, 97, 116, 105, 97, 108, 70, 111, 114, 109, 117, 108, 97, 116, 105, 111, 110, 95, 83, 116, 101, 114, 101, 111, 112, 104, 111, 110, 105, 99, 77, 111, 100, 101]), (7, [69, 108, 101, 99, 116, 114, 111, 83, 112, 97, 116, 105, 97, 108, 70, 111, 114, 109, 117, 108, 97, 116, 105, 111, 110, 95, 83, 105, 110, 103, 108, 101, 67, 104, 97, 110, 110, 101, 108, 68, 111, 117, 98, 108, 101, 83, 97, 109, 112, 108, 105, 110, 103, 70, 114, 101, 113, 117, 101, 110, 99, 121, 77, 111, 100, 101]), (8, [69, 108, 101, 99, 116, 114, 111, 83, 112, 97, 116, 105, 97, 108, 70, 111, 114, 109, 117, 108, 97, 116, 105, 111, 110, 95, 83, 116, 101, 114, 101, 111, 76, 101, 102, 116, 67, 104, 97, 110, 110, 101, 108, 68, 111, 117, 98, 108, 101, 83, 97, 109, 112, 108, 105, 110, 103, 70, 114, 101, 113, 117, 101, 110, 99, 121, 77, 111, 100, 101]), (9, [69, 108, 101, 99, 116, 114, 111, 83, 112, 97, 116, 105, 97, 108, 70, 111, 114, 109, 117, 108, 97, 116, 105, 111, 110, 95, 83, 116, 101, 114, 101, 111, 82, 105, 103, 104, 116, 67, 104, 97, 110, 110, 101, 108, 68, 111, 117, 98, 108, 101, 83, 97, 109, 112, 108, 105, 110, 103, 70, 114, 101, 113, 117, 101, 110, 99, 121, 77, 111, 100, 101]), (15, [69, 108, 101, 99, 116, 114, 111, 83, 112, 97, 116, 105, 97, 108, 70, 111, 114, 109, 117, 108, 97, 116, 105, 111, 110, 95, 77, 117, 108, 116, 105, 67, 104, 97, 110, 110, 101, 108, 77, 111, 100, 101])]⟩,
  ⟨0x0201012300000000060e2b3401040101, 0x456d70686173697354797065, .enum 0x0101010000000000060e2b3401040101 [(0, [69, 109, 112, 104, 97, 115, 105, 115, 95, 85, 110, 107, 110, 111, 119, 110]), (1, [69, 109, 112, 104, 97, 115, 105, 115, 95, 82, 101, 115, 101, 114, 118, 101, 100, 48]), (2, [69, 109, 112, 104, 97, 115, 105, 115, 95, 82, 101, 115, 101, 114, 118, 101, 100, 49]), (3, [69, 109, 112, 104, 97, 115, 105, 115, 95, 82, 101, 115, 101, 114, 118, 101, 100, 50]), (4, [69, 109, 112, 104, 97, 115, 105, 115, 95, 78, 111, 110, 101]), (5, [69, 109, 112, 104, 97, 115, 105, 115, 95, 82, 101, 115, 101, 114, 118, 101, 100, 51]), (6, [69, 109, 112, 104, 97, 115, 105, 115, 95, 49, 53, 97, 110, 100, 53, 48]), (7, [69, 109, 112, 104, 97, 115, 105, 115, 95, 73, 84, 85])]⟩,
  ⟨0x0201012400000000060e2b3401040101, 0x417578426974734d6f646554797065, .enum 0x0101010000000000060e2b3401040101 [(0, [65, 117, 120, 66, 105, 116, 115, 77, 111, 100, 101, 95, 78, 111, 116, 68, 101, 102, 105, 110, 101, 100]), (1, [65, 117, 120, 66, 105, 116, 115, 77, 111, 100, 101, 95, 77, 97, 105, 110, 65, 117, 100, 105, 111, 83, 97, 109, 112, 108, 101, 68, 97, 116, 97]), (2, [65, 117, 120, 66, 105, 116, 115, 77, 111, 100, 101, 95, 83, 105, 110, 103, 108, 101, 67, 111, 111, 114, 100, 105, 110, 97, 116, 105, 111, 110, 83, 105, 103, 110, 97, 108]), (3, [65, 117, 120, 66, 105, 116, 115, 77, 111, 100, 101, 95, 85, 115, 101, 114, 68, 101, 102, 105, 110, 101, 100]), (4, [65, 117, 120, 66, 105, 116, 115, 77, 111, 100, 101, 95, 82, 101, 115, 101, 114, 118, 101, 100, 48]), (5, [65, 117, 120, 66, 105, 116, 115, 77, 111, 100, 101, 95, 82, 101, 115, 101, 114, 118, 101, 100, 49]), (6, [65, 117, 120, 66, 105, 116, 115, 77, 111, 100, 101, 95, 82, 101, 115, 101, 114, 118, 101, 100, 50]), (7, [65, 117, 120, 66, 105, 116, 115, 77, 111, 100, 101, 95, 82, 101, 115, 101, 114, 118, 101, 100, 51])]⟩,
  ⟨0x0201012500000000060e2b3401040101, 0x4368616e6e656c5374617475734d6f646554797065, .enum 0x0101010000000000060e2b3401040101 [(0, [67, 104, 97, 110, 110, 101, 108, 83, 116, 97, 116, 117, 115, 77, 111, 100, 101, 95, 78, 111, 110, 101]), (1, [67, 104, 97, 110, 110, 101, 108, 83, 116, 97, 116, 117, 115, 77, 111, 100, 101, 95, 77, 105, 110, 105, 109, 117, 109]), (2, [67, 104, 97, 110, 110, 101, 108, 83, 116, 97, 116, 117, 115, 77, 111, 100, 101, 95, 83, 116, 97, 110, 100, 97, 114, 100]), (3, [67, 104, 97, 110, 110, 101, 108, 83, 116, 97, 116, 117, 115, 77, 111, 100, 101, 95, 70, 105, 120, 101, 100]), (4, [67, 104, 97, 110, 110, 101, 108, 83, 116, 97, 116, 117, 115, 77, 111, 100, 101, 95, 83, 116, 114, 101, 97, 109]), (5, [67, 104, 97, 110, 110, 101, 108, 83, 116, 97, 116, 117, 115, 77, 111, 100, 101, 95, 69, 115, 115, 101, 110, 99, 101])]⟩,
  ⟨0x0201012600000000060e2b3401040101, 0x55736572446174614d6f646554797065, .enum 0x0101010000000000060e2b3401040101 [(0, [85, 115, 101, 114, 68, 97, 116, 97, 77, 111, 100, 101, 95, 78, 111, 116, 68, 101, 102, 105, 110, 101, 100]), (1, [85, 115, 101, 114, 68, 97, 116, 97, 77, 111, 100, 101, 95, 49, 57, 50, 66, 105, 116, 66, 108, 111, 99, 107, 83, 116, 114, 117, 99, 116, 117, 114, 101]), (2, [85, 115, 101, 114, 68, 97, 116, 97, 77, 111, 100, 101, 95, 65, 69, 83, 49, 56]), (3, [85, 115, 101, 114, 68, 97, 116, 97, 77, 111, 100, 101, 95, 85, 115, 101, 114, 68, 101, 102, 105, 110, 101, 100]), (4, [85, 115, 101, 114, 68, 97, 116, 97, 77, 111, 100, 101, 95, 73, 69, 67]), (5, [85, 115, 101, 114, 68, 97, 116, 97, 77, 111, 100, 101, 95, 77, 101, 116, 97, 100, 97, 116, 97]), (6, [85, 115, 101, 114, 68, 97, 116, 97, 77, 111, 100, 101, 95, 82, 101, 115, 101, 114, 118, 101, 100, 48]), (7, [85, 115, 101, 114, 68, 97, 116, 97, 77, 111, 100, 101, 95, 82, 101, 115, 101, 114, 118, 101, 100, 49]), (8, [85, 115, 101, 114, 68, 97, 116, 97, 77, 111, 100, 101, 95, 82, 101, 115, 101, 114, 118, 101, 100, 50]), (9, [85, 115, 101, 114, 68, 97, 116, 97, 77, 111, 100, 101, 95, 82, 101, 115, 101, 114, 118, 101, 100, 51]), (10, [85, 115, 101, 114, 68, 97, 116, 97, 77, 111, 100, 101, 95, 82, 101, 115, 101, 114, 118, 101, 100, 52]), (11, [85, 115, 101, 114, 68, 97, 116, 97, 77, 111, 100, 101, 95, 82, 101, 115, 101, 114, 118, 101, 100, 53]), (12, [85, 115, 101, 114, 68, 97, 116, 97, 77, 111, 100, 101, 95, 82, 101, 115, 101, 114, 118, 101, 100, 54]), (13, [85, 115, 101, 114, 68, 97, 116, 97, 77, 111, 100, 101, 95, 82, 101, 115, 101, 114, 118, 101, 100, 55]), (14, [85, 115, 101, 114, 68, 97, 116, 97, 77, 111, 100, 101, 95, 82, 101, 115, 101, 114, 118, 101, 100, 56]), (15, [85, 115, 101, 114, 68, 97, 116, 97, 77, 111, 100, 101, 95, 82, 101, 115, 101, 114, 118, 101, 100, 57])]⟩,
  ⟨0x0201012700000000060e2b3401040101, 0x5369676e616c5374616e6461726454797065, .enum 0x0101010000000000060e2b3401040101 [(0, [83, 105, 103, 110, 97, 108, 83, 116, 97, 110, 100, 97, 114, 100, 95, 78, 111, 110, 101]), (1, [83, 105, 103, 110, 97, 108, 83, 116, 97, 110, 100, 97, 114, 100, 95, 73, 84, 85, 54, 48, 49]), (2, [83, 105, 103, 110, 97, 108, 83, 116, 97, 110, 100, 97, 114, 100, 95, 73, 84, 85, 49, 51, 53, 56]), (3, [83, 105, 103, 110, 97, 108, 83, 116, 97, 110, 100, 97, 114, 100, 95, 83, 77, 80, 84, 69, 51, 52, 55, 77]), (4, [83, 105, 103, 110, 97, 108, 83, 116, 97, 110, 100, 97, 114, 100, 95, 83, 77, 80, 84, 69, 50, 55, 52, 77]), (5, [83, 105, 103, 110, 97, 108, 83, 116, 97, 110, 100, 97, 114, 100, 95, 83, 77, 80, 84, 69, 50, 57, 54, 77]), (6, [83, 105, 103, 110, 97, 108, 83, 116, 97, 110, 100, 97, 114, 100, 95, 83, 77, 80, 84, 69, 51, 52, 57, 77]), (7, [83, 105, 103, 110, 97, 108, 83, 116, 97, 110, 100, 97, 114, 100, 95, 83, 77, 80, 84, 69, 52, 50, 56, 95, 49])]⟩,
  ⟨0x0201012800000000060e2b3401040101, 0x5363616e6e696e67446972656374696f6e54797065, .enum 0x0101010000000000060e2b3401040101 [(0, [83, 99, 97, 110, 110, 105, 110, 103, 68, 105, 114, 101, 99, 116, 105, 111, 110, 95, 76, 101, 102, 116, 84, 111, 82, 105, 103, 104, 116, 84, 111, 112, 84, 111, 66, 111, 116, 116, 111, 109]), (1, [83, 99, 97, 110, 110, 105, 110, 103, 68, 105, 114, 101, 99, 116, 105, 111, 110, 95, 82, 105, 103, 104, 116, 84, 111, 76, 101, 102, 116, 84, 111, 112, 84, 111, 66, 111, 116, 116, 111, 109]), (2, [83, 99, 97, 110, 110, 105, 110, 103, 68, 105, 114, 101, 99, 116, 105, 111, 110, 95, 76, 101, 102, 116, 84, 111, 82, 105, 103, 104, 116, 66, 111, 116, 116, 111, 109, 84, 111, 84, 111, 112]), (3, [83, 99, 97, 110, 110, 105, 110, 103, 68, 105, 114, 101, 99, 116, 105, 111, 110, 95, 82, 105, 103, 104, 116, 84, 111, 76, 101, 102, 116, 66, 111, 116, 116, 111, 109, 84, 111, 84, 111, 112]), (4, [83, 99, 97, 110, 110, 105, 110, 103, 68, 105, 114, 101, 99, 116, 105, 111, 110, 95, 84, 111, 112, 84, 111, 66, 111, 116, 116, 111, 109, 76, 101, 102, 116, 84, 111, 82, 105, 103, 104, 116]), (5, [83, 99, 97, 110, 110, 105, 110, 103, 68, 105, 114, 101, 99, 116, 105, 111, 110, 95, 84, 111, 112, 84, 111, 66, 111, 116, 116, 111, 109, 82, 105, 103, 104, 116, 84, 111, 76, 101, 102, 116]), (6, [83, 99, 97, 110, 110, 105, 110, 103, 68, 105, 114, 101, 99, 116, 105, 111, 110, 95, 66, 111, 116, 116, 111, 109, 84, 111, 84, 111, 112, 76, 101, 102, 116, 84, 111, 82, 105, 103, 104, 116]), (7, [83, 99, 97, 110, 110, 105, 110, 103, 68, 105, 114, 101, 99, 116, 105, 111, 110, 95, 66, 111, 116, 116, 111, 109, 84, 111, 84, 111, 112, 82, 105, 103, 104, 116, 84, 111, 76, 101, 102, 116])]⟩,
  ⟨0x0201012a00000000060e2b3401040101, 0x436f6e74656e745363616e6e696e6754797065, .enum 0x0101010000000000060e2b3401040101 [(0, [67, 111, 110, 116, 101, 110, 116, 83, 99, 97, 110, 110, 105, 110, 103, 95, 78, 111, 116, 75, 110, 111, 119, 110]), (1, [67, 111, 110, 116, 101, 110, 116, 83, 99, 97, 110, 110, 105, 110, 103, 95, 80, 114, 111, 103, 114, 101, 115, 115, 105, 118, 101]), (2, [67, 111, 110, 116, 101, 110, 116, 83, 99, 97, 110, 110, 105, 110, 103, 95, 73, 110, 116, 101, 114, 108, 97, 99, 101]), (3, [67, 111, 110, 116, 101, 110, 116, 83, 99, 97, 110, 110, 105, 110, 103, 95, 77, 105, 120, 101, 100])]⟩,
  ⟨0x0201012b00000000060e2b3401040101, 0x5469746c65416c69676e6d656e7454797065, .enum 0x0101010000000000060e2b3401040101 [(0, [84, 105, 116, 108, 101, 65, 108, 105, 103, 110, 109, 101, 110, 116, 95, 76, 101, 102, 116]), (1, [84, 105, 116, 108, 101, 65, 108, 105, 103, 110, 109, 101, 110, 116, 95, 67, 101, 110, 116, 101, 114]), (2, [84, 105, 116, 108, 101, 65, 108, 105, 103, 110, 109, 101, 110, 116, 95, 82, 105, 103, 104, 116])]⟩,
  ⟨0x0201012c00000000060e2b3401040101, 0x415643436f6e74656e745363616e6e696e6754797065, .enum 0x0101010000000000060e2b3401040101 [(0, [65, 86, 67, 67, 111, 110, 116, 101, 110, 116, 83, 99, 97, 110, 110, 105, 110, 103, 95, 78, 111, 116, 75, 110, 111, 119, 110]), (1, [65, 86, 67, 67, 111, 110, 116, 101, 110, 116, 83, 99, 97, 110, 110, 105, 110, 103, 95, 80, 114, 111, 103, 114, 101, 115, 115, 105, 118, 101, 70, 114, 97, 109, 101, 80, 105, 99, 116, 117, 114, 101]), (2, [65, 86, 67, 67, 111, 110, 116, 101, 110, 116, 83, 99, 97, 110, 110, 105, 110, 103, 95, 73, 110, 116, 101, 114, 108, 97, 99, 101, 70, 105, 101, 108, 100, 80, 105, 99, 116, 117, 114, 101]), (3, [65, 86, 67, 67, 111, 110, 116, 101, 110, 116, 83, 99, 97, 110, 110, 105, 110, 103, 95, 73, 110, 116, 101, 114, 108, 97, 99, 101, 70, 114, 97, 109, 101, 80, 105, 99, 116, 117, 114, 101]), (4, [65, 86, 67, 67, 111, 110, 116, 101, 110, 116, 83, 99, 97, 110, 110, 105, 110, 103, 95, 73, 110, 116, 101, 114, 108, 97, 99, 101, 95, 70, 114, 97, 109, 101, 70, 105, 101, 108, 100, 80, 105, 99, 116, 117, 114, 101])]⟩,
  ⟨0x0201012d00000000060e2b3401040101, 0x4d5045473456697375616c436f646564436f6e74656e7454797065, .enum 0x0101010000000000060e2b3401040101 [(0, [77, 80, 69, 71, 52, 86, 105, 115, 117, 97, 108, 67, 111, 100, 101, 100, 67, 111, 110, 116, 101, 110, 116, 95, 85, 110, 107, 110, 111, 119, 110]), (1, [77, 80, 69, 71, 52, 86, 105, 115, 117, 97, 108, 67, 111, 100, 101, 100, 67, 111, 110, 116, 101, 110, 116, 95, 80, 114, 111, 103, 114, 101, 115, 115, 105, 118, 101]), (2, [77, 80, 69, 71, 52, 86, 105, 115, 117, 97, 108, 67, 111, 100, 101, 100, 67, 111, 110, 116, 101, 110, 116, 95, 73, 110, 116, 101, 114, 108, 97, 99, 101, 100]), (3, [77, 80, 69, 71, 52, 86, 105, 115, 117, 97, 108, 67, 111, 100, 101, 100, 67, 111, 110, 116, 101, 110, 116, 95, 77, 105, 120, 101, 100])]⟩,
  ⟨0x0103010000000000060e2b3401040101, 0x41554944, .record [([68, 97, 116, 97, 49], 0x0101030000000000060e2b3401040101), ([68, 97, 116, 97, 50], 0x0101020000000000060e2b3401040101), ([68, 97, 116, 97, 51], 0x0101020000000000060e2b3401040101), ([68, 97, 116, 97, 52], 0x0401080000000000060e2b3401040101)]⟩,
  ⟨0x0103020000000000060e2b3401040101, 0x4d6f62494454797065, .record [([83, 77, 80, 84, 69, 76, 97, 98, 101, 108], 0x0401020000000000060e2b3401040101), ([108, 101, 110, 103, 116, 104], 0x0101010000000000060e2b3401040101), ([105, 110, 115, 116, 97, 110, 99, 101, 72, 105, 103, 104], 0x0101010000000000060e2b3401040101), ([105, 110, 115, 116, 97, 110, 99, 101, 77, 105, 100], 0x0101010000000000060e2b3401040101), ([105, 110, 115, 116, 97, 110, 99, 101, 76, 111, 119], 0x0101010000000000060e2b3401040101), ([109, 97, 116, 101, 114, 105, 97, 108], 0x0103010000000000060e2b3401040101)]⟩,
  ⟨0x0301010000000000060e2b3401040101, 0x526174696f6e616c, .record [([78, 117, 109, 101, 114, 97, 116, 111, 114], 0x0101070000000000060e2b3401040101), ([68, 101, 110, 111, 109, 105, 110, 97, 116, 111, 114], 0x0101070000000000060e2b3401040101)]⟩,
  ⟨0x0301020000000000060e2b3401040101, 0x50726f6475637456657273696f6e, .record [([109, 97, 106, 111, 114], 0x0101020000000000060e2b3401040101), ([109, 105, 110, 111, 114], 0x0101020000000000060e2b3401040101), ([116, 101, 114, 116, 105, 97, 114, 121], 0x0101020000000000060e2b3401040101), ([112, 97, 116, 99, 104, 76, 101, 118, 101, 108], 0x0101020000000000060e2b3401040101), ([116, 121, 112, 101], 0x0201010100000000060e2b3401040101)]⟩,
  ⟨0x0301030000000000060e2b3401040101, 0x56657273696f6e54797065, .record [([109, 97, 106, 111, 114], 0x0101050000000000060e2b3401040101), ([109, 105, 110, 111, 114], 0x0101050000000000060e2b3401040101)]⟩,
  ⟨0x0301040000000000060e2b3401040101, 0x52474241436f6d706f6e656e74, .record [([67, 111, 100, 101], 0x0201010e00000000060e2b3401040101), ([83, 105, 122, 101], 0x0101010000000000060e2b3401040101)]⟩,
  ⟨0x0301050000000000060e2b3401040101, 0x44617465537472756374, .record [([121, 101, 97, 114], 0x0101060000000000060e2b3401040101), ([109, 111, 110, 116, 104], 0x0101010000000000060e2b3401040101), ([100, 97, 121], 0x0101010000000000060e2b3401040101)]⟩,
  ⟨0x0301060000000000060e2b3401040101, 0x54696d65537472756374, .record [([104, 111, 117, 114], 0x0101010000000000060e2b3401040101), ([109, 105, 110, 117, 116, 101], 0x0101010000000000060e2b3401040101), ([115, 101, 99, 111, 110, 100], 0x0101010000000000060e2b3401040101), ([102, 114, 97, 99, 116, 105, 111, 110], 0x0101010000000000060e2b3401040101)]⟩,
  ⟨0x0301070000000000060e2b3401040101, 0x54696d655374616d70, .record [([100, 97, 116, 101], 0x0301050000000000060e2b3401040101), ([116, 105, 109, 101], 0x0301060000000000060e2b3401040101)]⟩,
  ⟨0x0103030000000000060e2b3401040101, 0x61616655554944, .fixed 0x0101010000000000060e2b3401040101 16⟩,
  ⟨0x0401020000000000060e2b3401040101, 0x61616655496e743841727261793132, .fixed 0x0101010000000000060e2b3401040101 12⟩,
  ⟨0x0401080000000000060e2b3401040101, 0x61616655496e7438417272617938, .fixed 0x0101010000000000060e2b3401040101 8⟩,
  ⟨0x0402010000000000060e2b3401040101, 0x616166524742414c61796f7574, .fixed 0x0301040000000000060e2b3401040101 8⟩,
  ⟨0x0401150000000000060e2b3401040101, 0x616166555549444172726179, .var 0x0103030000000000060e2b3401040101⟩,
  ⟨0x0401010000000000060e2b3401040101, 0x61616655496e74384172726179, .var 0x0101010000000000060e2b3401040101⟩,
  ⟨0x0401030000000000060e2b3401040101, 0x616166496e7433324172726179, .var 0x0101070000000000060e2b3401040101⟩,
  ⟨0x0401040000000000060e2b3401040101, 0x616166496e7436344172726179, .var 0x0101080000000000060e2b3401040101⟩,
  ⟨0x0401050000000000060e2b3401040101, 0x616166537472696e674172726179, .var 0x0110010000000000060e2b3401040101⟩,
  ⟨0x0401060000000000060e2b3401040101, 0x616166415549444172726179, .var 0x0103010000000000060e2b3401040101⟩,
  ⟨0x0401070000000000060e2b3401040101, 0x616166506f736974696f6e4172726179, .var 0x0101010000000000060e2b3401040101⟩,
  ⟨0x0401090000000000060e2b3401040101, 0x61616655496e7433324172726179, .var 0x0101030000000000060e2b3401040101⟩,
  ⟨0x04010a0000000000060e2b3401040101, 0x6161664368616e6e656c5374617475734d6f64654172726179, .var 0x0201012500000000060e2b3401040101⟩,
  ⟨0x04010b0000000000060e2b3401040101, 0x61616655736572446174614d6f64654172726179, .var 0x0201012600000000060e2b3401040101⟩,
  ⟨0x0410010000000000060e2b3401040101, 0x6161664461746156616c7565, .var 0x0101010000000000060e2b3401040101⟩,
  ⟨0x0506010000000000060e2b3401040101, 0x6b4141465479706549445f436f6d706f6e656e745374726f6e675265666572656e6365566563746f72, .var 0x05020b0000000000060e2b3401040101⟩,
  ⟨0x0506020000000000060e2b3401040101, 0x6b4141465479706549445f436f6e74726f6c506f696e745374726f6e675265666572656e6365566563746f72, .var 0x05020d0000000000060e2b3401040101⟩,
  ⟨0x0506030000000000060e2b3401040101, 0x6b4141465479706549445f4964656e74696669636174696f6e5374726f6e675265666572656e6365566563746f72, .var 0x0502100000000000060e2b3401040101⟩,
  ⟨0x0506040000000000060e2b3401040101, 0x6b4141465479706549445f4c6f6361746f725374726f6e675265666572656e6365566563746f72, .var 0x0502120000000000060e2b3401040101⟩,
  ⟨0x0506050000000000060e2b3401040101, 0x6b4141465479706549445f4d6f62536c6f745374726f6e675265666572656e6365566563746f72, .var 0x0502140000000000060e2b3401040101⟩,
  ⟨0x0506060000000000060e2b3401040101, 0x6b4141465479706549445f5365676d656e745374726f6e675265666572656e6365566563746f72, .var 0x0502060000000000060e2b3401040101⟩,
  ⟨0x0506070000000000060e2b3401040101, 0x6b4141465479706549445f536f757263655265666572656e63655374726f6e675265666572656e6365566563746f72, .var 0x0502080000000000060e2b3401040101⟩,
  ⟨0x0506080000000000060e2b3401040101, 0x6b4141465479706549445f54616767656456616c75655374726f6e675265666572656e6365566563746f72, .var 0x05021a0000000000060e2b3401040101⟩,
  ⟨0x0506090000000000060e2b3401040101, 0x6b4141465479706549445f4b4c56446174615374726f6e675265666572656e6365566563746f72, .var 0x05021c0000000000060e2b3401040101⟩,
  ⟨0x05060a0000000000060e2b3401040101, 0x6b4141465479706549445f506172616d657465725374726f6e675265666572656e6365566563746f72, .var 0x0502160000000000060e2b3401040101⟩,
  ⟨0x05060b0000000000060e2b3401040101, 0x6b4141465479706549445f46696c6544657363726970746f725374726f6e675265666572656e6365566563746f72, .var 0x05021d0000000000060e2b3401040101⟩,
  ⟨0x05060c0000000000060e2b3401040101, 0x6b4141465479706549445f524946464368756e6b5374726f6e675265666572656e6365566563746f72, .var 0x05021e0000000000060e2b3401040101⟩,
  ⟨0x05060d0000000000060e2b3401040101, 0x6b4141465479706549445f44657363726970746976654f626a6563745374726f6e675265666572656e6365566563746f72, .var 0x0502220000000000060e2b3401040101⟩,
  ⟨0x05060e0000000000060e2b3401040101, 0x6b4141465479706549445f53756244657363726970746f725374726f6e675265666572656e6365566563746f72, .var 0x0502260000000000060e2b3401040101⟩,
  ⟨0x0504010000000000060e2b3401040101, 0x6b4141465479706549445f4f7065726174696f6e446566696e6974696f6e5765616b5265666572656e6365566563746f72, .var 0x0501070000000000060e2b3401040101⟩,
  ⟨0x0504020000000000060e2b3401040101, 0x6b4141465479706549445f54797065446566696e6974696f6e5765616b5265666572656e6365566563746f72, .var 0x0501090000000000060e2b3401040101⟩,
  ⟨0x0504030000000000060e2b3401040101, 0x6b4141465479706549445f44617461446566696e6974696f6e5765616b5265666572656e6365566563746f72, .var 0x0501030000000000060e2b3401040101⟩,
  ⟨0x0101200100000000060e2b3401040101, 0x616166506f736974696f6e54797065, .rename 0x0101080000000000060e2b3401040101⟩,
  ⟨0x0101200200000000060e2b3401040101, 0x6161664c656e67746854797065, .rename 0x0101080000000000060e2b3401040101⟩,
  ⟨0x0101200300000000060e2b3401040101, 0x6161664a5045475461626c65494454797065, .rename 0x0101070000000000060e2b3401040101⟩,
  ⟨0x0101230000000000060e2b3401040101, 0x61616650686173654672616d6554797065, .rename 0x0101070000000000060e2b3401040101⟩,
  ⟨0x0110020000000000060e2b3401040101, 0x616166537472696e67, .str 0x0110010000000000060e2b3401040101⟩,
  ⟨0x0110040000000000060e2b3401040101, 0x61616649534f37, .str 0x0110030000000000060e2b3401040101⟩,
  ⟨0x0410020000000000060e2b3401040101, 0x53747265616d, .plain .stream⟩,
  ⟨0x0410040000000000060e2b3401040101, 0x6161664f7061717565, .plain .opaque⟩,
  ⟨0x0202010100000000060e2b3401040101, 0x4f7065726174696f6e43617465676f727954797065, .ext [([2, 1, 1, 13, 1, 1, 0, 1, 6, 14, 43, 52, 4, 1, 1, 1], [79, 112, 101, 114, 97, 116, 105, 111, 110, 67, 97, 116, 101, 103, 111, 114, 121, 95, 69, 102, 102, 101, 99, 116])]⟩,
  ⟨0x0202010200000000060e2b3401040101, 0x5472616e73666572436861726163746572697374696354797065, .ext [([1, 1, 1, 4, 1, 1, 0, 0, 6, 14, 43, 52, 4, 1, 1, 1], [84, 114, 97, 110, 115, 102, 101, 114, 67, 104, 97, 114, 97, 99, 116, 101, 114, 105, 115, 116, 105, 99, 95, 73, 84, 85, 52, 55, 48, 95, 80, 65, 76]), ([1, 1, 1, 4, 2, 1, 0, 0, 6, 14, 43, 52, 4, 1, 1, 1], [84, 114, 97, 110, 115, 102, 101, 114, 67, 104, 97, 114, 97, 99, 116, 101, 114, 105, 115, 116, 105, 99, 95, 73, 84, 85, 55, 48, 57]), ([1, 1, 1, 4, 3, 1, 0, 0, 6, 14, 43, 52, 4, 1, 1, 1], [84, 114, 97, 110, 115, 102, 101, 114, 67, 104, 97, 114, 97, 99, 116, 101, 114, 105, 115, 116, 105, 99, 95, 83, 77, 80, 84, 69, 50, 52, 48, 77]), ([1, 1, 1, 4, 4, 1, 0, 0, 6, 14, 43, 52, 4, 1, 1, 1], [84, 114, 97, 110, 115, 102, 101, 114, 67, 104, 97, 114, 97, 99, 116, 101, 114, 105, 115, 116, 105, 99, 95, 50, 55, 52, 77, 95, 50, 57, 54, 77]), ([1, 1, 1, 4, 5, 1, 0, 0, 6, 14, 43, 52, 4, 1, 1, 1], [84, 114, 97, 110, 115, 102, 101, 114, 67, 104, 97, 114, 97, 99, 116, 101, 114, 105, 115, 116, 105, 99, 95, 73, 84, 85, 49, 51, 54, 49]), ([1, 1, 1, 4, 6, 1, 0, 0, 6, 14, 43, 52, 4, 1, 1, 1], [84, 114, 97, 110, 115, 102, 101, 114, 67, 104, 97, 114, 97, 99, 116, 101, 114, 105, 115, 116, 105, 99, 95, 108, 105, 110, 101, 97, 114]), ([1, 1, 1, 4, 7, 1, 0, 0, 6, 14, 43, 52, 4, 1, 1, 8], [84, 114, 97, 110, 115, 102, 101, 114, 67, 104, 97, 114, 97, 99, 116, 101, 114, 105, 115, 116, 105, 99, 95, 83, 77, 80, 84, 69, 95, 68, 67, 68, 77]), ([1, 1, 1, 4, 8, 1, 0, 0, 6, 14, 43, 52, 4, 1, 1, 13], [84, 114, 97, 110, 115, 102, 101, 114, 67, 104, 97, 114, 97, 99, 116, 101, 114, 105, 115, 116, 105, 99, 95, 73, 69, 67, 54, 49, 57, 54, 54, 50, 52, 95, 120, 118, 89, 67, 67]), ([1, 1, 1, 4, 9, 1, 0, 0, 6, 14, 43, 52, 4, 1, 1, 14], [84, 114, 97, 110, 115, 102, 101, 114, 67, 104, 97, 114, 97, 99, 116, 101, 114, 105, 115, 116, 105, 99, 95, 73, 84, 85, 50, 48, 50, 48]), ([1, 1, 1, 4, 10, 1, 0, 0, 6, 14, 43, 52, 4, 1, 1, 13], [84, 114, 97, 110, 115, 102, 101, 114, 67, 104, 97, 114, 97, 99, 116, 101, 114, 105, 115, 116, 105, 99, 95, 83, 77, 80, 84, 69, 83, 84, 50, 48, 56, 52]), ([1, 1, 1, 4, 11, 1, 0, 0, 6, 14, 43, 52, 4, 1, 1, 13], [84, 114, 97, 110, 115, 102, 101, 114, 67, 104, 97, 114, 97, 99, 116, 101, 114, 105, 115, 116, 105, 99, 95, 72, 76, 71, 95, 79, 69, 84, 70]), ([1, 5, 4, 14, 1, 1, 0, 0, 6, 14, 43, 52, 4, 1, 1, 1], [84, 114, 97, 110, 115, 102, 101, 114, 67, 104, 97, 114, 97, 99, 116, 101, 114, 105, 115, 116, 105, 99, 95, 68, 80, 88, 80, 114, 105, 110, 116, 105, 110, 103, 68, 101, 110, 115, 105, 116, 121]), ([1, 5, 4, 14, 2, 1, 0, 0, 6, 14, 43, 52, 4, 1, 1, 1], [84, 114, 97, 110, 115, 102, 101, 114, 67, 104, 97, 114, 97, 99, 116, 101, 114, 105, 115, 116, 105, 99, 95, 68, 80, 88, 76, 111, 103, 97, 114, 105, 116, 104, 109, 105, 99]), ([1, 5, 4, 14, 3, 1, 0, 0, 6, 14, 43, 52, 4, 1, 1, 1], [84, 114, 97, 110, 115, 102, 101, 114, 67, 104, 97, 114, 97, 99, 116, 101, 114, 105, 115, 116, 105, 99, 95, 83, 82, 71, 66]), ([1, 5, 4, 14, 5, 1, 0, 0, 6, 14, 43, 52, 4, 1, 1, 1], [84, 114, 97, 110, 115, 102, 101, 114, 67, 104, 97, 114, 97, 99, 116, 101, 114, 105, 115, 116, 105, 99, 95, 83, 77, 80, 84, 69, 95, 82, 80, 52, 51, 49]), ([1, 5, 4, 14, 6, 1, 0, 0, 6, 14, 43, 52, 4, 1, 1, 1], [84, 114, 97, 110, 115, 102, 101, 114, 67, 104, 97, 114, 97, 99, 116, 101, 114, 105, 115, 116, 105, 99, 95, 83, 77, 80, 84, 69, 95, 83, 84, 50, 48, 56, 52]), ([1, 5, 4, 14, 8, 1, 0, 0, 6, 14, 43, 52, 4, 1, 1, 1], [84, 114, 97, 110, 115, 102, 101, 114, 67, 104, 97, 114, 97, 99, 116, 101, 114, 105, 115, 116, 105, 99, 95, 65, 82, 73, 66, 95, 66, 54, 55]), ([1, 5, 4, 14, 10, 1, 0, 0, 6, 14, 43, 52, 4, 1, 1, 1], [84, 114, 97, 110, 115, 102, 101, 114, 67, 104, 97, 114, 97, 99, 116, 101, 114, 105, 115, 116, 105, 99, 95, 73, 84, 85, 55, 48, 57, 95, 69, 120, 116, 101, 110, 100, 101, 100, 50]), ([1, 4, 6, 14, 1, 1, 5, 6, 6, 14, 43, 52, 4, 1, 1, 6], [84, 114, 97, 110, 115, 102, 101, 114, 67, 104, 97, 114, 97, 99, 116, 101, 114, 105, 115, 116, 105, 99, 95, 83, 111, 110, 121, 95, 83, 76, 111, 103, 51]), ([0, 0, 23, 14, 1, 0, 1, 1, 6, 14, 43, 52, 4, 1, 1, 12], [84, 114, 97, 110, 115, 102, 101, 114, 67, 104, 97, 114, 97, 99, 116, 101, 114, 105, 115, 116, 105, 99, 95, 65, 82, 82, 73, 95, 76, 111, 103, 67])]⟩,
  ⟨0x0202010300000000060e2b3401040101, 0x506c7567696e43617465676f727954797065, .ext [([2, 1, 1, 13, 1, 1, 0, 2, 6, 14, 43, 52, 4, 1, 1, 1], [80, 108, 117, 103, 105, 110, 67, 97, 116, 101, 103, 111, 114, 121, 95, 69, 102, 102, 101, 99, 116]), ([2, 1, 1, 13, 1, 1, 0, 3, 6, 14, 43, 52, 4, 1, 1, 1], [80, 108, 117, 103, 105, 110, 67, 97, 116, 101, 103, 111, 114, 121, 95, 67, 111, 100, 101, 99]), ([2, 1, 1, 13, 1, 1, 0, 4, 6, 14, 43, 52, 4, 1, 1, 1], [80, 108, 117, 103, 105, 110, 67, 97, 116, 101, 103, 111, 114, 121, 95, 73, 110, 116, 101, 114, 112, 111, 108, 97, 116, 105, 111, 110])]⟩,
  ⟨0x0202010400000000060e2b3401040101, 0x557361676554797065, .ext [([2, 1, 1, 13, 1, 1, 0, 5, 6, 14, 43, 52, 4, 1, 1, 1], [85, 115, 97, 103, 101, 95, 83, 117, 98, 67, 108, 105, 112]), ([2, 1, 1, 13, 1, 1, 0, 6, 6, 14, 43, 52, 4, 1, 1, 1], [85, 115, 97, 103, 101, 95, 65, 100, 106, 117, 115, 116, 101, 100, 67, 108, 105, 112]), ([2, 1, 1, 13, 1, 1, 0, 7, 6, 14, 43, 52, 4, 1, 1, 1], [85, 115, 97, 103, 101, 95, 84, 111, 112, 76, 101, 118, 101, 108]), ([2, 1, 1, 13, 1, 1, 0, 8, 6, 14, 43, 52, 4, 1, 1, 1], [85, 115, 97, 103, 101, 95, 76, 111, 119, 101, 114, 76, 101, 118, 101, 108]), ([2, 1, 1, 13, 1, 1, 0, 9, 6, 14, 43, 52, 4, 1, 1, 1], [85, 115, 97, 103, 101, 95, 84, 101, 109, 112, 108, 97, 116, 101])]⟩,
  ⟨0x0202010500000000060e2b3401040101, 0x436f6c6f725072696d617269657354797065, .ext [([1, 1, 1, 4, 1, 3, 0, 0, 6, 14, 43, 52, 4, 1, 1, 6], [67, 111, 108, 111, 114, 80, 114, 105, 109, 97, 114, 105, 101, 115, 95, 83, 77, 80, 84, 69, 49, 55, 48, 77]), ([1, 1, 1, 4, 2, 3, 0, 0, 6, 14, 43, 52, 4, 1, 1, 6], [67, 111, 108, 111, 114, 80, 114, 105, 109, 97, 114, 105, 101, 115, 95, 73, 84, 85, 52, 55, 48, 95, 80, 65, 76]), ([1, 1, 1, 4, 3, 3, 0, 0, 6, 14, 43, 52, 4, 1, 1, 6], [67, 111, 108, 111, 114, 80, 114, 105, 109, 97, 114, 105, 101, 115, 95, 73, 84, 85, 55, 48, 57]), ([1, 1, 1, 4, 4, 3, 0, 0, 6, 14, 43, 52, 4, 1, 1, 13], [67, 111, 108, 111, 114, 80, 114, 105, 109, 97, 114, 105, 101, 115, 95, 73, 84, 85, 50, 48, 50, 48]), ([1, 1, 1, 4, 5, 3, 0, 0, 6, 14, 43, 52, 4, 1, 1, 13], [67, 111, 108, 111, 114, 80, 114, 105, 109, 97, 114, 105, 101, 115, 95, 83, 77, 80, 84, 69, 95, 68, 67, 68, 77]), ([1, 1, 1, 4, 6, 3, 0, 0, 6, 14, 43, 52, 4, 1, 1, 13], [67, 111, 108, 111, 114, 80, 114, 105, 109, 97, 114, 105, 101, 115, 95, 80, 51, 68, 54, 53]), ([1, 5, 4, 14, 1, 3, 0, 0, 6, 14, 43, 52, 4, 1, 1, 1], [67, 111, 108, 111, 114, 80, 114, 105, 109, 97, 114, 105, 101, 115, 95, 83, 77, 80, 84, 69, 95, 82, 80, 52, 51, 49]), ([1, 5, 4, 14, 2, 3, 0, 0, 6, 14, 43, 52, 4, 1, 1, 1], [67, 111, 108, 111, 114, 80, 114, 105, 109, 97, 114, 105, 101, 115, 95, 83, 111, 110, 121, 95, 83, 71, 97, 109, 117, 116, 51]), ([1, 5, 4, 14, 3, 3, 0, 0, 6, 14, 43, 52, 4, 1, 1, 1], [67, 111, 108, 111, 114, 80, 114, 105, 109, 97, 114, 105, 101, 115, 95, 83, 111, 110, 121, 95, 83, 71, 97, 109, 117, 116, 51, 95, 67, 105, 110, 101])]⟩,
  ⟨0x0202010600000000060e2b3401040101, 0x436f64696e674571756174696f6e7354797065, .ext [([1, 1, 1, 4, 1, 2, 0, 0, 6, 14, 43, 52, 4, 1, 1, 1], [67, 111, 100, 105, 110, 103, 69, 113, 117, 97, 116, 105, 111, 110, 115, 95, 73, 84, 85, 54, 48, 49]), ([1, 1, 1, 4, 2, 2, 0, 0, 6, 14, 43, 52, 4, 1, 1, 1], [67, 111, 100, 105, 110, 103, 69, 113, 117, 97, 116, 105, 111, 110, 115, 95, 73, 84, 85, 55, 48, 57]), ([1, 1, 1, 4, 3, 2, 0, 0, 6, 14, 43, 52, 4, 1, 1, 1], [67, 111, 100, 105, 110, 103, 69, 113, 117, 97, 116, 105, 111, 110, 115, 95, 83, 77, 80, 84, 69, 50, 52, 48, 77]), ([1, 1, 1, 4, 4, 2, 0, 0, 6, 14, 43, 52, 4, 1, 1, 13], [67, 111, 100, 105, 110, 103, 69, 113, 117, 97, 116, 105, 111, 110, 115, 95, 89, 67, 103, 67, 111]), ([1, 1, 1, 4, 5, 2, 0, 0, 6, 14, 43, 52, 4, 1, 1, 13], [67, 111, 100, 105, 110, 103, 69, 113, 117, 97, 116, 105, 111, 110, 115, 95, 71, 66, 82]), ([1, 1, 1, 4, 6, 2, 0, 0, 6, 14, 43, 52, 4, 1, 1, 13], [67, 111, 100, 105, 110, 103, 69, 113, 117, 97, 116, 105, 111, 110, 115, 95, 73, 84, 85, 50, 48, 50, 48, 95, 78, 67, 76]), ([1, 5, 4, 14, 1, 2, 0, 0, 6, 14, 43, 52, 4, 1, 1, 1], [67, 111, 100, 105, 110, 103, 69, 113, 117, 97, 116, 105, 111, 110, 115, 95, 73, 84, 85, 50, 48, 50, 48])]⟩,
  ⟨0x0110010000000000060e2b3401040101, 0x616166436861726163746572, .char⟩,
  ⟨0x0110030000000000060e2b3401040101, 0x61616643686172, .plain .genericChar⟩,
  ⟨0x0410030000000000060e2b3401040101, 0x616166496e646972656374, .plain .indirect⟩,
  ⟨0x0403010000000000060e2b3401040101, 0x41554944536574, .set 0x0103010000000000060e2b3401040101⟩,
  ⟨0x0403020000000000060e2b3401040101, 0x55496e743332536574, .set 0x0101030000000000060e2b3401040101⟩,
  ⟨0x0505010000000000060e2b3401040101, 0x6b4141465479706549445f436c617373446566696e6974696f6e5374726f6e675265666572656e6365536574, .set 0x0502090000000000060e2b3401040101⟩,
  ⟨0x0505020000000000060e2b3401040101, 0x6b4141465479706549445f436f646563446566696e6974696f6e5374726f6e675265666572656e6365536574, .set 0x05020a0000000000060e2b3401040101⟩,
  ⟨0x0505030000000000060e2b3401040101, 0x6b4141465479706549445f436f6e7461696e6572446566696e6974696f6e5374726f6e675265666572656e6365536574, .set 0x05020c0000000000060e2b3401040101⟩,
  ⟨0x0505040000000000060e2b3401040101, 0x6b4141465479706549445f44617461446566696e6974696f6e5374726f6e675265666572656e6365536574, .set 0x05020e0000000000060e2b3401040101⟩,
  ⟨0x0505050000000000060e2b3401040101, 0x6b4141465479706549445f457373656e6365446174615374726f6e675265666572656e6365536574, .set 0x05020f0000000000060e2b3401040101⟩,
  ⟨0x0505060000000000060e2b3401040101, 0x6b4141465479706549445f496e746572706f6c6174696f6e446566696e6974696f6e5374726f6e675265666572656e6365536574, .set 0x0502110000000000060e2b3401040101⟩,
  ⟨0x0505070000000000060e2b3401040101, 0x6b4141465479706549445f4d6f625374726f6e675265666572656e6365536574, .set 0x0502130000000000060e2b3401040101⟩,
  ⟨0x0505080000000000060e2b3401040101, 0x6b4141465479706549445f4f7065726174696f6e446566696e6974696f6e5374726f6e675265666572656e6365536574, .set 0x0502150000000000060e2b3401040101⟩,
  ⟨0x0505090000000000060e2b3401040101, 0x6b4141465479706549445f506172616d65746572446566696e6974696f6e5374726f6e675265666572656e6365536574, .set 0x0502170000000000060e2b3401040101⟩,
  ⟨0x05050a0000000000060e2b3401040101, 0x6b4141465479706549445f506c7567696e446566696e6974696f6e5374726f6e675265666572656e6365536574, .set 0x0502180000000000060e2b3401040101⟩,
  ⟨0x05050b0000000000060e2b3401040101, 0x6b4141465479706549445f50726f7065727479446566696e6974696f6e5374726f6e675265666572656e6365536574, .set 0x0502190000000000060e2b3401040101⟩,
  ⟨0x05050c0000000000060e2b3401040101, 0x6b4141465479706549445f54797065446566696e6974696f6e5374726f6e675265666572656e6365536574, .set 0x05021b0000000000060e2b3401040101⟩,
  ⟨0x05050d0000000000060e2b3401040101, 0x6b4141465479706549445f4b4c5644617461446566696e6974696f6e5374726f6e675265666572656e6365536574, .set 0x0502200000000000060e2b3401040101⟩,
  ⟨0x05050e0000000000060e2b3401040101, 0x6b4141465479706549445f54616767656456616c7565446566696e6974696f6e5374726f6e675265666572656e6365536574, .set 0x0502210000000000060e2b3401040101⟩,
  ⟨0x05050f0000000000060e2b3401040101, 0x6b4141465479706549445f44657363726970746976654f626a6563745374726f6e675265666572656e6365536574, .set 0x0502220000000000060e2b3401040101⟩,
  ⟨0x05030d0000000000060e2b3401040101, 0x6b4141465479706549445f44617461446566696e6974696f6e5765616b5265666572656e6365536574, .set 0x0501030000000000060e2b3401040101⟩,
  ⟨0x05030e0000000000060e2b3401040101, 0x6b4141465479706549445f506172616d65746572446566696e6974696f6e5765616b5265666572656e6365536574, .set 0x0501080000000000060e2b3401040101⟩,
  ⟨0x05030f0000000000060e2b3401040101, 0x6b4141465479706549445f506c7567696e446566696e6974696f6e5765616b5265666572656e6365536574, .set 0x05010a0000000000060e2b3401040101⟩,
  ⟨0x0503100000000000060e2b3401040101, 0x6b4141465479706549445f50726f7065727479446566696e6974696f6e5765616b5265666572656e6365536574, .set 0x05010c0000000000060e2b3401040101⟩,
  ⟨0x0502010000000000060e2b3401040101, 0x6b4141465479706549445f436f6e74656e7453746f726167655374726f6e675265666572656e6365, .strong 0x0d01010101011800060e2b3402060101⟩,
  ⟨0x0502020000000000060e2b3401040101, 0x6b4141465479706549445f44696374696f6e6172795374726f6e675265666572656e6365, .strong 0x0d01010101012200060e2b3402060101⟩,
  ⟨0x0502030000000000060e2b3401040101, 0x6b4141465479706549445f457373656e636544657363726970746f725374726f6e675265666572656e6365, .strong 0x0d01010101012400060e2b3402060101⟩,
  ⟨0x0502040000000000060e2b3401040101, 0x6b4141465479706549445f4e6574776f726b4c6f6361746f725374726f6e675265666572656e6365, .strong 0x0d01010101013200060e2b3402060101⟩,
  ⟨0x0502050000000000060e2b3401040101, 0x6b4141465479706549445f4f7065726174696f6e47726f75705374726f6e675265666572656e6365, .strong 0x0d01010101010a00060e2b3402060101⟩,
  ⟨0x0502060000000000060e2b3401040101, 0x6b4141465479706549445f5365676d656e745374726f6e675265666572656e6365, .strong 0x0d01010101010300060e2b3402060101⟩,
  ⟨0x0502070000000000060e2b3401040101, 0x6b4141465479706549445f536f75726365436c69705374726f6e675265666572656e6365, .strong 0x0d01010101011100060e2b3402060101⟩,
  ⟨0x0502080000000000060e2b3401040101, 0x6b4141465479706549445f536f757263655265666572656e63655374726f6e675265666572656e6365, .strong 0x0d01010101011000060e2b3402060101⟩,
  ⟨0x0502090000000000060e2b3401040101, 0x6b4141465479706549445f436c617373446566696e6974696f6e5374726f6e675265666572656e6365, .strong 0x0d01010102010000060e2b3402060101⟩,
  ⟨0x05020a0000000000060e2b3401040101, 0x6b4141465479706549445f436f646563446566696e6974696f6e5374726f6e675265666572656e6365, .strong 0x0d01010101011f00060e2b3402060101⟩,
  ⟨0x05020b0000000000060e2b3401040101, 0x6b4141465479706549445f436f6d706f6e656e745374726f6e675265666572656e6365, .strong 0x0d01010101010200060e2b3402060101⟩,
  ⟨0x05020c0000000000060e2b3401040101, 0x6b4141465479706549445f436f6e7461696e6572446566696e6974696f6e5374726f6e675265666572656e6365, .strong 0x0d01010101012000060e2b3402060101⟩,
  ⟨0x05020d0000000000060e2b3401040101, 0x6b4141465479706549445f436f6e74726f6c506f696e745374726f6e675265666572656e6365, .strong 0x0d01010101011900060e2b3402060101⟩,
  ⟨0x05020e0000000000060e2b3401040101, 0x6b4141465479706549445f44617461446566696e6974696f6e5374726f6e675265666572656e6365, .strong 0x0d01010101011b00060e2b3402060101⟩,
  ⟨0x05020f0000000000060e2b3401040101, 0x6b4141465479706549445f457373656e6365446174615374726f6e675265666572656e6365, .strong 0x0d01010101012300060e2b3402060101⟩,
  ⟨0x0502100000000000060e2b3401040101, 0x6b4141465479706549445f4964656e74696669636174696f6e5374726f6e675265666572656e6365, .strong 0x0d01010101013000060e2b3402060101⟩,
  ⟨0x0502110000000000060e2b3401040101, 0x6b4141465479706549445f496e746572706f6c6174696f6e446566696e6974696f6e5374726f6e675265666572656e6365, .strong 0x0d01010101012100060e2b3402060101⟩,
  ⟨0x0502120000000000060e2b3401040101, 0x6b4141465479706549445f4c6f6361746f725374726f6e675265666572656e6365, .strong 0x0d01010101013100060e2b3402060101⟩,
  ⟨0x0502130000000000060e2b3401040101, 0x6b4141465479706549445f4d6f625374726f6e675265666572656e6365, .strong 0x0d01010101013400060e2b3402060101⟩,
  ⟨0x0502140000000000060e2b3401040101, 0x6b4141465479706549445f4d6f62536c6f745374726f6e675265666572656e6365, .strong 0x0d01010101013800060e2b3402060101⟩,
  ⟨0x0502150000000000060e2b3401040101, 0x6b4141465479706549445f4f7065726174696f6e446566696e6974696f6e5374726f6e675265666572656e6365, .strong 0x0d01010101011c00060e2b3402060101⟩,
  ⟨0x0502160000000000060e2b3401040101, 0x6b4141465479706549445f506172616d657465725374726f6e675265666572656e6365, .strong 0x0d01010101013c00060e2b3402060101⟩,
  ⟨0x0502170000000000060e2b3401040101, 0x6b4141465479706549445f506172616d65746572446566696e6974696f6e5374726f6e675265666572656e6365, .strong 0x0d01010101011d00060e2b3402060101⟩,
  ⟨0x0502180000000000060e2b3401040101, 0x6b4141465479706549445f506c7567696e446566696e6974696f6e5374726f6e675265666572656e6365, .strong 0x0d01010101011e00060e2b3402060101⟩,
  ⟨0x0502190000000000060e2b3401040101, 0x6b4141465479706549445f50726f7065727479446566696e6974696f6e5374726f6e675265666572656e6365, .strong 0x0d01010102020000060e2b3402060101⟩,
  ⟨0x05021a0000000000060e2b3401040101, 0x6b4141465479706549445f54616767656456616c75655374726f6e675265666572656e6365, .strong 0x0d01010101013f00060e2b3402060101⟩,
  ⟨0x05021b0000000000060e2b3401040101, 0x6b4141465479706549445f54797065446566696e6974696f6e5374726f6e675265666572656e6365, .strong 0x0d01010102030000060e2b3402060101⟩,
  ⟨0x05021c0000000000060e2b3401040101, 0x6b4141465479706549445f4b4c56446174615374726f6e675265666572656e6365, .strong 0x0d01010101014000060e2b3402060101⟩,
  ⟨0x05021d0000000000060e2b3401040101, 0x6b4141465479706549445f46696c6544657363726970746f725374726f6e675265666572656e6365, .strong 0x0d01010101012500060e2b3402060101⟩,
  ⟨0x05021e0000000000060e2b3401040101, 0x6b4141465479706549445f524946464368756e6b5374726f6e675265666572656e6365, .strong 0x0d01010101014f00060e2b3402060101⟩,
  ⟨0x05021f0000000000060e2b3401040101, 0x6b4141465479706549445f44657363726970746976654672616d65776f726b5374726f6e675265666572656e6365, .strong 0x0d01040100000000060e2b3402060101⟩,
  ⟨0x0502200000000000060e2b3401040101, 0x6b4141465479706549445f4b4c5644617461446566696e6974696f6e5374726f6e675265666572656e6365, .strong 0x0d01010101014d00060e2b3402060101⟩,
  ⟨0x0502210000000000060e2b3401040101, 0x6b4141465479706549445f54616767656456616c7565446566696e6974696f6e5374726f6e675265666572656e6365, .strong 0x0d01010101014c00060e2b3402060101⟩,
  ⟨0x0502220000000000060e2b3401040101, 0x6b4141465479706549445f44657363726970746976654f626a6563745374726f6e675265666572656e6365, .strong 0x0d01040000000000060e2b3402060101⟩,
  ⟨0x0502260000000000060e2b3401040101, 0x6b4141465479706549445f53756244657363726970746f725374726f6e675265666572656e6365, .strong 0x0d01010101015900060e2b3402060101⟩,
  ⟨0x0501010000000000060e2b3401040101, 0x436c617373446566696e6974696f6e5765616b5265666572656e6365, .weak 0x0d01010102010000060e2b3402060101⟩,
  ⟨0x0501020000000000060e2b3401040101, 0x436f6e7461696e6572446566696e6974696f6e5765616b5265666572656e6365, .weak 0x0d01010101012000060e2b3402060101⟩,
  ⟨0x0501030000000000060e2b3401040101, 0x44617461446566696e6974696f6e5765616b5265666572656e6365, .weak 0x0d01010101011b00060e2b3402060101⟩,
  ⟨0x0501050000000000060e2b3401040101, 0x496e746572706f6c6174696f6e446566696e6974696f6e5765616b5265666572656e6365, .weak 0x0d01010101012100060e2b3402060101⟩,
  ⟨0x0501060000000000060e2b3401040101, 0x4d6f625765616b5265666572656e6365, .weak 0x0d01010101013400060e2b3402060101⟩,
  ⟨0x0501070000000000060e2b3401040101, 0x4f7065726174696f6e446566696e6974696f6e5765616b5265666572656e6365, .weak 0x0d01010101011c00060e2b3402060101⟩,
  ⟨0x0501080000000000060e2b3401040101, 0x506172616d65746572446566696e6974696f6e5765616b5265666572656e6365, .weak 0x0d01010101011d00060e2b3402060101⟩,
  ⟨0x0501090000000000060e2b3401040101, 0x54797065446566696e6974696f6e5765616b5265666572656e6365, .weak 0x0d01010102030000060e2b3402060101⟩,
  ⟨0x05010a0000000000060e2b3401040101, 0x506c7567696e446566696e6974696f6e5765616b5265666572656e6365, .weak 0x0d01010101011e00060e2b3402060101⟩,
  ⟨0x05010b0000000000060e2b3401040101, 0x436f646563446566696e6974696f6e5765616b5265666572656e6365, .weak 0x0d01010101011f00060e2b3402060101⟩,
  ⟨0x05010c0000000000060e2b3401040101, 0x50726f7065727479446566696e6974696f6e5765616b5265666572656e6365, .weak 0x0d01010102020000060e2b3402060101⟩,
  ⟨0x3659b3424f1943169309f139434a94e5, 0x4176696450616e6e65724b696e6454797065, .enum 0x0101030000000000060e2b3401040101 [(1, [65, 118, 105, 100, 80, 97, 110, 110, 101, 114, 75, 105, 110, 100, 95, 83, 116, 101, 114, 101, 111]), (2, [65, 118, 105, 100, 80, 97, 110, 110, 101, 114, 75, 105, 110, 100, 95, 76, 67, 82]), (3, [65, 118, 105, 100, 80, 97, 110, 110, 101, 114, 75, 105, 110, 100, 95, 81, 117, 97, 100]), (4, [65, 118, 105, 100, 80, 97, 110, 110, 101, 114, 75, 105, 110, 100, 95, 76, 67, 82, 83]), (5, [65, 118, 105, 100, 80, 97, 110, 110, 101, 114, 75, 105, 110, 100, 95, 53, 100, 111, 116, 48]), (6, [65, 118, 105, 100, 80, 97, 110, 110, 101, 114, 75, 105, 110, 100, 95, 53, 100, 111, 116, 49]), (7, [65, 118, 105, 100, 80, 97, 110, 110, 101, 114, 75, 105, 110, 100, 95, 54, 100, 111, 116, 48]), (8, [65, 118, 105, 100, 80, 97, 110, 110, 101, 114, 75, 105, 110, 100, 95, 54, 100, 111, 116, 49]), (9, [65, 118, 105, 100, 80, 97, 110, 110, 101, 114, 75, 105, 110, 100, 95, 55, 100, 111, 116, 48]), (10, [65, 118, 105, 100, 80, 97, 110, 110, 101, 114, 75, 105, 110, 100, 95, 55, 100, 111, 116, 49])]⟩,
  ⟨0x0e04020101010000060e2b3401040101, 0x41766964457373656e6365456c656d656e7453697a654b696e64, .enum 0x0101010000000000060e2b3401040101 [(0, [65, 118, 105, 100, 69, 115, 115, 101, 110, 99, 101, 69, 108, 101, 109, 101, 110, 116, 83, 105, 122, 101, 75, 105, 110, 100, 95, 85, 110, 107, 110, 111, 119, 110]), (1, [65, 118, 105, 100, 69, 115, 115, 101, 110, 99, 101, 69, 108, 101, 109, 101, 110, 116, 83, 105, 122, 101, 75, 105, 110, 100, 95, 67, 66, 69]), (2, [65, 118, 105, 100, 69, 115, 115, 101, 110, 99, 101, 69, 108, 101, 109, 101, 110, 116, 83, 105, 122, 101, 75, 105, 110, 100, 95, 86, 66, 69])]⟩,
  ⟨0x0e04030102000000060e2b3401040101, 0x426f756e6473426f78, .record [([80, 111, 115, 105, 116, 105, 111, 110, 88], 0x0301010000000000060e2b3401040101), ([80, 111, 115, 105, 116, 105, 111, 110, 89], 0x0301010000000000060e2b3401040101), ([87, 105, 100, 116, 104], 0x0301010000000000060e2b3401040101), ([72, 101, 105, 103, 104, 116], 0x0301010000000000060e2b3401040101)]⟩,
  ⟨0x0e04030101000000060e2b3401040101, 0x417669644d616e6966657374456c656d656e74, .record [([100, 105, 100], 0x0101010000000000060e2b3401040101), ([115, 100, 105, 100], 0x0101010000000000060e2b3401040101)]⟩,
  ⟨0xc4c670c9bd4411d380e9006008143e6f, 0x457175616c697a6174696f6e42616e64, .record [([116, 121, 112, 101], 0x0103010000000000060e2b3401040101), ([102, 114, 101, 113, 117, 101, 110, 99, 121], 0x0101030000000000060e2b3401040101), ([103, 97, 105, 110], 0x0101030000000000060e2b3401040101), ([113], 0x0101030000000000060e2b3401040101), ([101, 110, 97, 98, 108, 101], 0x0104010000000000060e2b3401040101)]⟩,
  ⟨0xe96e6d43c38311d3a069006094eb75cb, 0x524742436f6c6f72, .record [([114, 101, 100], 0x0101020000000000060e2b3401040101), ([103, 114, 101, 101, 110], 0x0101020000000000060e2b3401040101), ([98, 108, 117, 101], 0x0101020000000000060e2b3401040101)]⟩,
  ⟨0x4e4d8f5feefd11d39ff50004ac969f50, 0x417564696f5375697465506c7567496e4368756e6b, .record [([86, 101, 114, 115, 105, 111, 110], 0x0101030000000000060e2b3401040101), ([77, 97, 110, 117, 102, 97, 99, 116, 117, 114, 101, 114, 73, 68], 0x0f96cb412aa811d4a00f0004ac969f50), ([80, 114, 111, 100, 117, 99, 116, 73, 68], 0x0f96cb412aa811d4a00f0004ac969f50), ([80, 108, 117, 103, 73, 110, 73, 68], 0x0f96cb412aa811d4a00f0004ac969f50), ([67, 104, 117, 110, 107, 73, 68], 0x0f96cb412aa811d4a00f0004ac969f50), ([78, 97, 109, 101], 0x3271a34ff3a111d39ff50004ac969f50), ([67, 104, 117, 110, 107, 68, 97, 116, 97, 85, 73, 68], 0x0103010000000000060e2b3401040101)]⟩,
  ⟨0x8bc427326bab11d380cf006008143e6f, 0x41766964426f756e6473, .fixed 0x0101010000000000060e2b3401040101 48⟩,
  ⟨0x8bc427336bab11d380cf006008143e6f, 0x41766964436f6c6f72, .fixed 0x0101010000000000060e2b3401040101 68⟩,
  ⟨0x8bc4272f6bab11d380cf006008143e6f, 0x4176696443726f70, .fixed 0x0101010000000000060e2b3401040101 32⟩,
  ⟨0x09997778960e11d3a04e006094eb75cb, 0x41766964476c6f62616c4b65794672616d65, .fixed 0x0101010000000000060e2b3401040101 16⟩,
  ⟨0x8bc4272e6bab11d380cf006008143e6f, 0x41766964506f736974696f6e, .fixed 0x0101010000000000060e2b3401040101 24⟩,
  ⟨0x8bc427306bab11d380cf006008143e6f, 0x417669645363616c65, .fixed 0x0101010000000000060e2b3401040101 16⟩,
  ⟨0x8bc427316bab11d380cf006008143e6f, 0x417669645370696c6c53757072657373, .fixed 0x0101010000000000060e2b3401040101 8⟩,
  ⟨0x0f96cb412aa811d4a00f0004ac969f50, 0x41766964537472696e6734, .fixed 0x0101010000000000060e2b3401040101 4⟩,
  ⟨0x3271a34ff3a111d39ff50004ac969f50, 0x4176696457696465537472696e673332, .fixed 0x0101020000000000060e2b3401040101 32⟩,
  ⟨0x4e4d8f60eefd11d39ff50004ac969f50, 0x417564696f537569746550494368756e6b4172726179, .var 0x4e4d8f5feefd11d39ff50004ac969f50⟩,
  ⟨0x5cf19cafef8311d39ff50004ac969f50, 0x417564696f537569746550494368756e6b44617461, .var 0x0101010000000000060e2b3401040101⟩,
  ⟨0xccaa73d1f53811d3a081006094eb75cb, 0x417669644261674f6642697473, .var 0x0101010000000000060e2b3401040101⟩,
  ⟨0x0e04040201000000060e2b3401040101, 0x417669644d616e69666573744172726179, .var 0x0e04030101000000060e2b3401040101⟩,
  ⟨0xb56a2ec2fc3b11d39ff70004ac969f50, 0x41766964544b4d4e547261636b6564506172616d4172726179, .var 0xf9a74d0a7b3011d3a044006094eb75cb⟩,
  ⟨0xb56a2ec3fc3b11d39ff70004ac969f50, 0x41766964544b4d4e547261636b6572446174614172726179, .var 0xf9a74d0a7b3011d3a044006094eb75cb⟩,
  ⟨0xc4c670cabd4411d380e9006008143e6f, 0x457175616c697a6174696f6e42616e644172726179, .var 0xc4c670c9bd4411d380e9006008143e6f⟩,
  ⟨0x05060e0000000000060e2b3401040101, 0x6b4141465479706549445f53756244657363726970746f725374726f6e675265666572656e6365566563746f72, .var 0x0502260000000000060e2b3401040101⟩,
  ⟨0xf9a74d0a7b3011d3a044006094eb75cb, 0x417669645374726f6e675265666572656e6365, .strong 0x0d01010101010100060e2b3402060101⟩,
  ⟨0x0502260000000000060e2b3401040101, 0x6b4141465479706549445f53756244657363726970746f725374726f6e675265666572656e6365, .strong 0x0d01010101015900060e2b3402060101⟩]

/-- `typedefs_by_auid`. (Used in `library`: metadict.py:349-351, 386-396.) -/
def libraryAuids : List (Nat × Nat) := [
  (0x0502280000000000060e2b3401040101, 0),
  (0x0502270000000000060e2b3401040101, 1),
  (0x0101010000000000060e2b3401040101, 2),
  (0x0101020000000000060e2b3401040101, 3),
  (0x0101030000000000060e2b3401040101, 4),
  (0x0101040000000000060e2b3401040101, 5),
  (0x0101050000000000060e2b3401040101, 6),
  (0x0101060000000000060e2b3401040101, 7),
  (0x0101070000000000060e2b3401040101, 8),
  (0x0101080000000000060e2b3401040101, 9),
  (0x0104010000000000060e2b3401040101, 10),
  (0x0201010100000000060e2b3401040101, 11),
  (0x0201010200000000060e2b3401040101, 12),
  (0x0201010300000000060e2b3401040101, 13),
  (0x0201010400000000060e2b3401040101, 14),
  (0x0201010500000000060e2b3401040101, 15),
  (0x0201010600000000060e2b3401040101, 16),
  (0x0201010700000000060e2b3401040101, 17),
  (0x0201010800000000060e2b3401040101, 18),
  (0x0201010900000000060e2b3401040101, 19),
  (0x0201010a00000000060e2b3401040101, 20),
  (0x0201010b00000000060e2b3401040101, 21),
  (0x0201010c00000000060e2b3401040101, 22),
  (0x0201010d00000000060e2b3401040101, 23),
  (0x0201010e00000000060e2b3401040101, 24),
  (0x0201010f00000000060e2b3401040101, 25),
  (0x0201012000000000060e2b3401040101, 26),
  (0x0201012100000000060e2b3401040101, 27),
  (0x0201012200000000060e2b3401040101, 28),
  (0x0201012300000000060e2b3401040101, 29),
  (0x0201012400000000060e2b3401040101, 30),
  (0x0201012500000000060e2b3401040101, 31),
  (0x0201012600000000060e2b3401040101, 32),
  (0x0201012700000000060e2b3401040101, 33),
  (0x0201012800000000060e2b3401040101, 34),
  (0x0201012a00000000060e2b3401040101, 35),
  (0x0201012b00000000060e2b3401040101, 36),
  (0x0201012c00000000060e2b3401040101, 37),
  (0x0201012d00000000060e2b3401040101, 38),
  (0x0103010000000000060e2b3401040101, 39),
  (0x0103020000000000060e2b3401040101, 40),
  (0x0301010000000000060e2b3401040101, 41),
  (0x0301020000000000060e2b3401040101, 42),
  (0x0301030000000000060e2b3401040101, 43),
  (0x0301040000000000060e2b3401040101, 44),
  (0x0301050000000000060e2b3401040101, 45),
  (0x0301060000000000060e2b3401040101, 46),
  (0x0301070000000000060e2b3401040101, 47),
  (0x0103030000000000060e2b3401040101, 48),
  (0x0401020000000000060e2b3401040101, 49),
  (0x0401080000000000060e2b3401040101, 50),
  (0x0402010000000000060e2b3401040101, 51),
  (0x0401150000000000060e2b3401040101, 52),
  (0x0401010000000000060e2b3401040101, 53),
  (0x0401030000000000060e2b3401040101, 54),
  (0x0401040000000000060e2b3401040101, 55),
  (0x0401050000000000060e2b3401040101, 56),
  (0x0401060000000000060e2b3401040101, 57),
  (0x0401070000000000060e2b3401040101, 58),
  (0x0401090000000000060e2b3401040101, 59),
  (0x04010a0000000000060e2b3401040101, 60),
  (0x04010b0000000000060e2b3401040101, 61),
  (0x0410010000000000060e2b3401040101, 62),
  (0x0506010000000000060e2b3401040101, 63),
  (0x0506020000000000060e2b3401040101, 64),
  (0x0506030000000000060e2b3401040101, 65),
  (0x0506040000000000060e2b3401040101, 66),
  (0x0506050000000000060e2b3401040101, 67),
  (0x0506060000000000060e2b3401040101, 68),
  (0x0506070000000000060e2b3401040101, 69),
  (0x0506080000000000060e2b3401040101, 70),
  (0x0506090000000000060e2b3401040101, 71),
  (0x05060a0000000000060e2b3401040101, 72),
  (0x05060b0000000000060e2b3401040101, 73),
  (0x05060c0000000000060e2b3401040101, 74),
  (0x05060d0000000000060e2b3401040101, 75),
  (0x05060e0000000000060e2b3401040101, 187),
  (0x0504010000000000060e2b3401040101, 77),
  (0x0504020000000000060e2b3401040101, 78),
  (0x0504030000000000060e2b3401040101, 79),
  (0x0101200100000000060e2b3401040101, 80),
  (0x0101200200000000060e2b3401040101, 81),
  (0x0101200300000000060e2b3401040101, 82),
  (0x0101230000000000060e2b3401040101, 83),
  (0x0110020000000000060e2b3401040101, 84),
  (0x0110040000000000060e2b3401040101, 85),
  (0x0410020000000000060e2b3401040101, 86),
  (0x0410040000000000060e2b3401040101, 87),
  (0x0202010100000000060e2b3401040101, 88),
  (0x0202010200000000060e2b3401040101, 89),
  (0x0202010300000000060e2b3401040101, 90),
  (0x0202010400000000060e2b3401040101, 91),
  (0x0202010500000000060e2b3401040101, 92),
  (0x0202010600000000060e2b3401040101, 93),
  (0x0110010000000000060e2b3401040101, 94),
  (0x0110030000000000060e2b3401040101, 95),
  (0x0410030000000000060e2b3401040101, 96),
  (0x0403010000000000060e2b3401040101, 97),
  (0x0403020000000000060e2b3401040101, 98),
  (0x0505010000000000060e2b3401040101, 99),
  (0x0505020000000000060e2b3401040101, 100),
  (0x0505030000000000060e2b3401040101, 101),
  (0x0505040000000000060e2b3401040101, 102),
  (0x0505050000000000060e2b3401040101, 103),
  (0x0505060000000000060e2b3401040101, 104),
  (0x0505070000000000060e2b3401040101, 105),
  (0x0505080000000000060e2b3401040101, 106),
  (0x0505090000000000060e2b3401040101, 107),
  (0x05050a0000000000060e2b3401040101, 108),
  (0x05050b0000000000060e2b3401040101, 109),
  (0x05050c0000000000060e2b3401040101, 110),
  (0x05050d0000000000060e2b3401040101, 111),
  (0x05050e0000000000060e2b3401040101, 112),
  (0x05050f0000000000060e2b3401040101, 113),
  (0x05030d0000000000060e2b3401040101, 114),
  (0x05030e0000000000060e2b3401040101, 115),
  (0x05030f0000000000060e2b3401040101, 116),
  (0x0503100000000000060e2b3401040101, 117),
  (0x0502010000000000060e2b3401040101, 118),
  (0x0502020000000000060e2b3401040101, 119),
  (0x0502030000000000060e2b3401040101, 120),
  (0x0502040000000000060e2b3401040101, 121),
  (0x0502050000000000060e2b3401040101, 122),
  (0x0502060000000000060e2b3401040101, 123),
  (0x0502070000000000060e2b3401040101, 124),
  (0x0502080000000000060e2b3401040101, 125),
  (0x0502090000000000060e2b3401040101, 126),
  (0x05020a0000000000060e2b3401040101, 127),
  (0x05020b0000000000060e2b3401040101, 128),
  (0x05020c0000000000060e2b3401040101, 129),
  (0x05020d0000000000060e2b3401040101, 130),
  (0x05020e0000000000060e2b3401040101, 131),
  (0x05020f0000000000060e2b3401040101, 132),
  (0x0502100000000000060e2b3401040101, 133),
  (0x0502110000000000060e2b3401040101, 134),
  (0x0502120000000000060e2b3401040101, 135),
  (0x0502130000000000060e2b3401040101, 136),
  (0x0502140000000000060e2b3401040101, 137),
  (0x0502150000000000060e2b3401040101, 138),
  (0x0502160000000000060e2b3401040101, 139),
  (0x0502170000000000060e2b3401040101, 140),
  (0x0502180000000000060e2b3401040101, 141),
  (0x0502190000000000060e2b3401040101, 142),
  (0x05021a0000000000060e2b3401040101, 143),
  (0x05021b0000000000060e2b3401040101, 144),
  (0x05021c0000000000060e2b3401040101, 145),
  (0x05021d0000000000060e2b3401040101, 146),
  (0x05021e0000000000060e2b3401040101, 147),
  (0x05021f0000000000060e2b3401040101, 148),
  (0x0502200000000000060e2b3401040101, 149),
  (0x0502210000000000060e2b3401040101, 150),
  (0x0502220000000000060e2b3401040101, 151),
  (0x0502260000000000060e2b3401040101, 189),
  (0x0501010000000000060e2b3401040101, 153),
  (0x0501020000000000060e2b3401040101, 154),
  (0x0501030000000000060e2b3401040101, 155),
  (0x0501050000000000060e2b3401040101, 156),
  (0x0501060000000000060e2b3401040101, 157),
  (0x0501070000000000060e2b3401040101, 158),
  (0x0501080000000000060e2b3401040101, 159),
  (0x0501090000000000060e2b3401040101, 160),
  (0x05010a0000000000060e2b3401040101, 161),
  (0x05010b0000000000060e2b3401040101, 162),
  (0x05010c0000000000060e2b3401040101, 163),
  (0x3659b3424f1943169309f139434a94e5, 164),
  (0x0e04020101010000060e2b3401040101, 165),
  (0x0e04030102000000060e2b3401040101, 166),
  (0x0e04030101000000060e2b3401040101, 167),
  (0xc4c670c9bd4411d380e9006008143e6f, 168),
  (0xe96e6d43c38311d3a069006094eb75cb, 169),
  (0x4e4d8f5feefd11d39ff50004ac969f50, 170),
  (0x8bc427326bab11d380cf006008143e6f, 171),
  (0x8bc427336bab11d380cf006008143e6f, 172),
  (0x8bc4272f6bab11d380cf006008143e6f, 173),
  (0x09997778960e11d3a04e006094eb75cb, 174),
  (0x8bc4272e6bab11d380cf006008143e6f, 175),
  (0x8bc427306bab11d380cf006008143e6f, 176),
  (0x8bc427316bab11d380cf006008143e6f, 177),
  (0x0f96cb412aa811d4a00f0004ac969f50, 178),
  (0x3271a34ff3a111d39ff50004ac969f50, 179),
  (0x4e4d8f60eefd11d39ff50004ac969f50, 180),
  (0x5cf19cafef8311d39ff50004ac969f50, 181),
  (0xccaa73d1f53811d3a081006094eb75cb, 182),
  (0x0e04040201000000060e2b3401040101, 183),
  (0xb56a2ec2fc3b11d39ff70004ac969f50, 184),
  (0xb56a2ec3fc3b11d39ff70004ac969f50, 185),
  (0xc4c670cabd4411d380e9006008143e6f, 186),
  (0xf9a74d0a7b3011d3a044006094eb75cb, 188)]

/-- `typedefs_by_name`. (Used in `library`: metadict.py:349-351, 386-396.) -/
def libraryNames : List (Nat × Nat) := [
  (0x4865616465725374726f6e67526566656e6365, 0),
  (0x4d65746144696374696f6e6172795374726f6e675265666572656e6365, 1),
  (0x61616655496e7438, 2),
  (0x61616655496e743136, 3),
  (0x61616655496e743332, 4),
  (0x61616655496e743634, 5),
  (0x616166496e7438, 6),
  (0x616166496e743136, 7),
  (0x616166496e743332, 8),
  (0x616166496e743634, 9),
  (0x426f6f6c65616e, 10),
  (0x50726f6475637452656c6561736554797065, 11),
  (0x54617065466f726d617454797065, 12),
  (0x566964656f5369676e616c54797065, 13),
  (0x546170654361736554797065, 14),
  (0x436f6c6f72536974696e6754797065, 15),
  (0x4564697448696e7454797065, 16),
  (0x4661646554797065, 17),
  (0x4c61796f757454797065, 18),
  (0x5443536f75726365, 19),
  (0x50756c6c646f776e446972656374696f6e54797065, 20),
  (0x50756c6c646f776e4b696e6454797065, 21),
  (0x4564676554797065, 22),
  (0x46696c6d54797065, 23),
  (0x52474241436f6d706f6e656e744b696e64, 24),
  (0x5265666572656e636554797065, 25),
  (0x416c7068615472616e73706172656e637954797065, 26),
  (0x4669656c644e756d626572, 27),
  (0x456c656374726f5370617469616c466f726d756c6174696f6e, 28),
  (0x456d70686173697354797065, 29),
  (0x417578426974734d6f646554797065, 30),
  (0x4368616e6e656c5374617475734d6f646554797065, 31),
  (0x55736572446174614d6f646554797065, 32),
  (0x5369676e616c5374616e6461726454797065, 33),
  (0x5363616e6e696e67446972656374696f6e54797065, 34),
  (0x436f6e74656e745363616e6e696e6754797065, 35),
  (0x5469746c65416c69676e6d656e7454797065, 36),
  (0x415643436f6e74656e745363616e6e696e6754797065, 37),
  (0x4d5045473456697375616c436f646564436f6e74656e7454797065, 38),
  (0x41554944, 39),
  (0x4d6f62494454797065, 40),
  (0x526174696f6e616c, 41),
  (0x50726f6475637456657273696f6e, 42),
  (0x56657273696f6e54797065, 43),
  (0x52474241436f6d706f6e656e74, 44),
  (0x44617465537472756374, 45),
  (0x54696d65537472756374, 46),
  (0x54696d655374616d70, 47),
  (0x61616655554944, 48),
  (0x61616655496e743841727261793132, 49),
  (0x61616655496e7438417272617938, 50),
  (0x616166524742414c61796f7574, 51),
  (0x616166555549444172726179, 52),
  (0x61616655496e74384172726179, 53),
  (0x616166496e7433324172726179, 54),
  (0x616166496e7436344172726179, 55),
  (0x616166537472696e674172726179, 56),
  (0x616166415549444172726179, 57),
  (0x616166506f736974696f6e4172726179, 58),
  (0x61616655496e7433324172726179, 59),
  (0x6161664368616e6e656c5374617475734d6f64654172726179, 60),
  (0x61616655736572446174614d6f64654172726179, 61),
  (0x6161664461746156616c7565, 62),
  (0x6b4141465479706549445f436f6d706f6e656e745374726f6e675265666572656e6365566563746f72, 63),
  (0x6b4141465479706549445f436f6e74726f6c506f696e745374726f6e675265666572656e6365566563746f72, 64),
  (0x6b4141465479706549445f4964656e74696669636174696f6e5374726f6e675265666572656e6365566563746f72, 65),
  (0x6b4141465479706549445f4c6f6361746f725374726f6e675265666572656e6365566563746f72, 66),
  (0x6b4141465479706549445f4d6f62536c6f745374726f6e675265666572656e6365566563746f72, 67),
  (0x6b4141465479706549445f5365676d656e745374726f6e675265666572656e6365566563746f72, 68),
  (0x6b4141465479706549445f536f757263655265666572656e63655374726f6e675265666572656e6365566563746f72, 69),
  (0x6b4141465479706549445f54616767656456616c75655374726f6e675265666572656e6365566563746f72, 70),
  (0x6b4141465479706549445f4b4c56446174615374726f6e675265666572656e6365566563746f72, 71),
  (0x6b4141465479706549445f506172616d657465725374726f6e675265666572656e6365566563746f72, 72),
  (0x6b4141465479706549445f46696c6544657363726970746f725374726f6e675265666572656e6365566563746f72, 73),
  (0x6b4141465479706549445f524946464368756e6b5374726f6e675265666572656e6365566563746f72, 74),
  (0x6b4141465479706549445f44657363726970746976654f626a6563745374726f6e675265666572656e6365566563746f72, 75),
  (0x6b4141465479706549445f53756244657363726970746f725374726f6e675265666572656e6365566563746f72, 187),
  (0x6b4141465479706549445f4f7065726174696f6e446566696e6974696f6e5765616b5265666572656e6365566563746f72, 77),
  (0x6b4141465479706549445f54797065446566696e6974696f6e5765616b5265666572656e6365566563746f72, 78),
  (0x6b4141465479706549445f44617461446566696e6974696f6e5765616b5265666572656e6365566563746f72, 79),
  (0x616166506f736974696f6e54797065, 80),
  (0x6161664c656e67746854797065, 81),
  (0x6161664a5045475461626c65494454797065, 82),
  (0x61616650686173654672616d6554797065, 83),
  (0x616166537472696e67, 84),
  (0x61616649534f37, 85),
  (0x53747265616d, 86),
  (0x6161664f7061717565, 87),
  (0x4f7065726174696f6e43617465676f727954797065, 88),
  (0x5472616e73666572436861726163746572697374696354797065, 89),
  (0x506c7567696e43617465676f727954797065, 90),
  (0x557361676554797065, 91),
  (0x436f6c6f725072696d617269657354797065, 92),
  (0x436f64696e674571756174696f6e7354797065, 93),
  (0x616166436861726163746572, 94),
  (0x61616643686172, 95),
  (0x616166496e646972656374, 96),
  (0x41554944536574, 97),
  (0x55496e743332536574, 98),
  (0x6b4141465479706549445f436c617373446566696e6974696f6e5374726f6e675265666572656e6365536574, 99),
  (0x6b4141465479706549445f436f646563446566696e6974696f6e5374726f6e675265666572656e6365536574, 100),
  (0x6b4141465479706549445f436f6e7461696e6572446566696e6974696f6e5374726f6e675265666572656e6365536574, 101),
  (0x6b4141465479706549445f44617461446566696e6974696f6e5374726f6e675265666572656e6365536574, 102),
  (0x6b4141465479706549445f457373656e6365446174615374726f6e675265666572656e6365536574, 103),
  (0x6b4141465479706549445f496e746572706f6c6174696f6e446566696e6974696f6e5374726f6e675265666572656e6365536574, 104),
  (0x6b4141465479706549445f4d6f625374726f6e675265666572656e6365536574, 105),
  (0x6b4141465479706549445f4f7065726174696f6e446566696e6974696f6e5374726f6e675265666572656e6365536574, 106),
  (0x6b4141465479706549445f506172616d65746572446566696e6974696f6e5374726f6e675265666572656e6365536574, 107),
  (0x6b4141465479706549445f506c7567696e446566696e6974696f6e5374726f6e675265666572656e6365536574, 108),
  (0x6b4141465479706549445f50726f7065727479446566696e6974696f6e5374726f6e675265666572656e6365536574, 109),
  (0x6b4141465479706549445f54797065446566696e6974696f6e5374726f6e675265666572656e6365536574, 110),
  (0x6b4141465479706549445f4b4c5644617461446566696e6974696f6e5374726f6e675265666572656e6365536574, 111),
  (0x6b4141465479706549445f54616767656456616c7565446566696e6974696f6e5374726f6e675265666572656e6365536574, 112),
  (0x6b4141465479706549445f44657363726970746976654f626a6563745374726f6e675265666572656e6365536574, 113),
  (0x6b4141465479706549445f44617461446566696e6974696f6e5765616b5265666572656e6365536574, 114),
  (0x6b4141465479706549445f506172616d65746572446566696e6974696f6e5765616b5265666572656e6365536574, 115),
  (0x6b4141465479706549445f506c7567696e446566696e6974696f6e5765616b5265666572656e6365536574, 116),
  (0x6b4141465479706549445f50726f7065727479446566696e6974696f6e5765616b5265666572656e6365536574, 117),
  (0x6b4141465479706549445f436f6e74656e7453746f726167655374726f6e675265666572656e6365, 118),
  (0x6b4141465479706549445f44696374696f6e6172795374726f6e675265666572656e6365, 119),
  (0x6b4141465479706549445f457373656e636544657363726970746f725374726f6e675265666572656e6365, 120),
  (0x6b4141465479706549445f4e6574776f726b4c6f6361746f725374726f6e675265666572656e6365, 121),
  (0x6b4141465479706549445f4f7065726174696f6e47726f75705374726f6e675265666572656e6365, 122),
  (0x6b4141465479706549445f5365676d656e745374726f6e675265666572656e6365, 123),
  (0x6b4141465479706549445f536f75726365436c69705374726f6e675265666572656e6365, 124),
  (0x6b4141465479706549445f536f757263655265666572656e63655374726f6e675265666572656e6365, 125),
  (0x6b4141465479706549445f436c617373446566696e6974696f6e5374726f6e675265666572656e6365, 126),
  (0x6b4141465479706549445f436f646563446566696e6974696f6e5374726f6e675265666572656e6365, 127),
  (0x6b4141465479706549445f436f6d706f6e656e745374726f6e675265666572656e6365, 128),
  (0x6b4141465479706549445f436f6e7461696e6572446566696e6974696f6e5374726f6e675265666572656e6365, 129),
  (0x6b4141465479706549445f436f6e74726f6c506f696e745374726f6e675265666572656e6365, 130),
  (0x6b4141465479706549445f44617461446566696e6974696f6e5374726f6e675265666572656e6365, 131),
  (0x6b4141465479706549445f457373656e6365446174615374726f6e675265666572656e6365, 132),
  (0x6b4141465479706549445f4964656e74696669636174696f6e5374726f6e675265666572656e6365, 133),
  (0x6b4141465479706549445f496e746572706f6c6174696f6e446566696e6974696f6e5374726f6e675265666572656e6365, 134),
  (0x6b4141465479706549445f4c6f6361746f725374726f6e675265666572656e6365, 135),
  (0x6b4141465479706549445f4d6f625374726f6e675265666572656e6365, 136),
  (0x6b4141465479706549445f4d6f62536c6f745374726f6e675265666572656e6365, 137),
  (0x6b4141465479706549445f4f7065726174696f6e446566696e6974696f6e5374726f6e675265666572656e6365, 138),
  (0x6b4141465479706549445f506172616d657465725374726f6e675265666572656e6365, 139),
  (0x6b4141465479706549445f506172616d65746572446566696e6974696f6e5374726f6e675265666572656e6365, 140),
  (0x6b4141465479706549445f506c7567696e446566696e6974696f6e5374726f6e675265666572656e6365, 141),
  (0x6b4141465479706549445f50726f7065727479446566696e6974696f6e5374726f6e675265666572656e6365, 142),
  (0x6b4141465479706549445f54616767656456616c75655374726f6e675265666572656e6365, 143),
  (0x6b4141465479706549445f54797065446566696e6974696f6e5374726f6e675265666572656e6365, 144),
  (0x6b4141465479706549445f4b4c56446174615374726f6e675265666572656e6365, 145),
  (0x6b4141465479706549445f46696c6544657363726970746f725374726f6e675265666572656e6365, 146),
  (0x6b4141465479706549445f524946464368756e6b5374726f6e675265666572656e6365, 147),
  (0x6b4141465479706549445f44657363726970746976654672616d65776f726b5374726f6e675265666572656e6365, 148),
  (0x6b4141465479706549445f4b4c5644617461446566696e6974696f6e5374726f6e675265666572656e6365, 149),
  (0x6b4141465479706549445f54616767656456616c7565446566696e6974696f6e5374726f6e675265666572656e6365, 150),
  (0x6b4141465479706549445f44657363726970746976654f626a6563745374726f6e675265666572656e6365, 151),
  (0x6b4141465479706549445f53756244657363726970746f725374726f6e675265666572656e6365, 189),
  (0x436c617373446566696e6974696f6e5765616b5265666572656e6365, 153),
  (0x436f6e7461696e6572446566696e6974696f6e5765616b5265666572656e6365, 154),
  (0x44617461446566696e6974696f6e5765616b5265666572656e6365, 155),
  (0x496e746572706f6c6174696f6e446566696e6974696f6e5765616b5265666572656e6365, 156),
  (0x4d6f625765616b5265666572656e6365, 157),
  (0x4f7065726174696f6e446566696e6974696f6e5765616b5265666572656e6365, 158),
  (0x506172616d65746572446566696e6974696f6e5765616b5265666572656e6365, 159),
  (0x54797065446566696e6974696f6e5765616b5265666572656e6365, 160),
  (0x506c7567696e446566696e6974696f6e5765616b5265666572656e6365, 161),
  (0x436f646563446566696e6974696f6e5765616b5265666572656e6365, 162),
  (0x50726f7065727479446566696e6974696f6e5765616b5265666572656e6365, 163),
  (0x4176696450616e6e65724b696e6454797065, 164),
  (0x41766964457373656e6365456c656d656e7453697a654b696e64, 165),
  (0x426f756e6473426f78, 166),
  (0x417669644d616e6966657374456c656d656e74, 167),
  (0x457175616c697a6174696f6e42616e64, 168),
  (0x524742436f6c6f72, 169),
  (0x417564696f5375697465506c7567496e4368756e6b, 170),
  (0x41766964426f756e6473, 171),
  (0x41766964436f6c6f72, 172),
  (0x4176696443726f70, 173),
  (0x41766964476c6f62616c4b65794672616d65, 174),
  (0x41766964506f736974696f6e, 175),
  (0x417669645363616c65, 176),
  (0x417669645370696c6c53757072657373, 177),
  (0x41766964537472696e6734, 178),
  (0x4176696457696465537472696e673332, 179),
  (0x417564696f537569746550494368756e6b4172726179, 180),
  (0x417564696f537569746550494368756e6b44617461, 181),
  (0x417669644261674f6642697473, 182),
  (0x417669644d616e69666573744172726179, 183),
  (0x41766964544b4d4e547261636b6564506172616d4172726179, 184),
  (0x41766964544b4d4e547261636b6572446174614172726179, 185),
  (0x457175616c697a6174696f6e42616e644172726179, 186),
  (0x417669645374726f6e675265666572656e6365, 188)]

/-- The types of a new file (metadict.py:349-351, 386-396; file.py:222): what registering the tables gives (`library_registered`). -/
@[irreducible] def library : Dict := ⟨libraryHeap, libraryAuids, libraryNames, []⟩

theorem library_registered : (rootTypes ++ baseTypes ++ extTypes).foldl declare ⟨[], [], [], []⟩ = library := by decide +kernel

end Verif.TDict
