import Verif.Model.Json
import Mathlib.Data.String.Basic

/-!
# Cleaning of case files

/repo/scripts/clean_json.py: `json.load` and `json.dump(data, file, indent=2, sort_keys=True)`.  Of a key that occurs twice the
last value counts.  Text that is not JSON is left out.
-/

namespace Posidonius.Json

variable {N : Type}

/-- Insertion into sorted fields; a value that is already there comes later in the file and stays. -/
def JsFields.insert (name : String) (j : Js N) : JsFields N → JsFields N
  | .nil => .cons name j .nil
  | .cons n i r =>
    if name < n then .cons name j (.cons n i r) else if name = n then .cons n i r else .cons n i (r.insert name j)

mutual
/-- clean_json.py 10-13; `reprint` reads and writes the text of a floating point number. -/
def clean (reprint : N → N) : Js N → Js N
  | .null => .null
  | .float n => .float (reprint n)
  | .int i => .int i
  | .bool b => .bool b
  | .str s => .str s
  | .arr l => .arr (cleanList reprint l)
  | .obj l => .obj (cleanFields reprint l)
def cleanList (reprint : N → N) : JsList N → JsList N
  | .nil => .nil
  | .cons j r => .cons (clean reprint j) (cleanList reprint r)
def cleanFields (reprint : N → N) : JsFields N → JsFields N
  | .nil => .nil
  | .cons n j r => (cleanFields reprint r).insert n (clean reprint j)
end

end Posidonius.Json
