import Verif.Model.Volume
/-!
# Opening an existing file
-/
namespace Verif.Volume

/-- `CompoundFileBinary(f, 'rb+')` on the bytes `g` (cfb.py:1078-1130): the second half of `reopen`. -/
def openVol (g : Bytes) : Res Vol := do
  let c ← Fat.openCfb g
  .ok ⟨treeOf c, c⟩

/-- What `close` leaves in the file (cfb.py:1144-1183): the first half of `reopen`. -/
def closeVol (v : Vol) : Res Bytes := Fat.close v.file

end Verif.Volume
