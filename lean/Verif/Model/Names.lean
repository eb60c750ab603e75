import Verif.Model.Text
/-!
# Generated directory names (src/aaf2/utils.py:182-203, src/aaf2/properties.py)

Property names are lists of Unicode characters (texts with lone surrogates are not representable).
-/
namespace Verif.Names

/-- `squeeze_name`, utils.py:182-197.  The loop over `i in range(size)`. -/
def squeeze (name : Text) (size : Nat) : Text :=
  if name.length ≤ size then name
  else
    let half := size / 2
    (List.range size).map fun i =>
      if i < half then name.getD i ' '
      else if i = half then '-'
      else name.getD (name.length - (size - i)) ' '

/-- `mangle_name`, utils.py:199-203. -/
def mangle (name : Text) (pid size : Nat) : Text :=
  let p := toHex pid
  squeeze name (size - p.length - 1 - 1) ++ ['-'] ++ p

/-- Name of a stream property or of a single strong reference, properties.py:222, 366. -/
def single (name : Text) (pid : Nat) : Text := mangle name pid 32

/-- `index_name` of a vector, set or weak reference array, properties.py:456-461, 861, 1216. -/
def indexName (name : Text) (pid : Nat) : Text := mangle name pid (32 - 10)

/-- `index_ref_name`, properties.py:508, 808: `"%s{%x}"`. -/
def member (name : Text) (pid key : Nat) : Text := indexName name pid ++ ['{'] ++ toHex key ++ ['}']

/-- Name of the index stream, properties.py:473, 491. -/
def index (name : Text) (pid : Nat) : Text := indexName name pid ++ [' ', 'i', 'n', 'd', 'e', 'x']

/-- The stream of an object's own properties, core.py:139. -/
def propertiesName : Text := ['p', 'r', 'o', 'p', 'e', 'r', 't', 'i', 'e', 's']

end Verif.Names
