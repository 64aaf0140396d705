import Verif.Model.FUtils
/-! # How the contents of an observation file are obtained -/
namespace Verif.Spec
open Verif.Py Verif.Model

/-- the treatment of a file by its type: `hat` Hatanaka, `comp` compressed -/
def fetchOf (hat comp : Bool) : Fetch :=
  match hat, comp with
  | false, false => .plain
  | false, true => .gunzip
  | true, false => .crx
  | true, true => .gunzipCrx

end Verif.Spec
