/-!
# Python exceptions as values

Every Python function that may raise is modelled as a function into `Except PyErr α`.  Messages are dropped.
The exception classes are those that the code raises or lets escape.
-/
namespace Verif.Py

/-- Exception classes.  `rinex` stands for `RinexError` and its subclasses (`/repo/tecs/rinex/basic.py:61-85`),
`header` for `HeaderError` (`/repo/tecs/rinex/header.py:40`), `label` for `LabelError`, `nm` for `NMError`,
`uncompress` for `UncompressError`, `cfg` for `CfgError`, `exit` for `SystemExit`, `exc` for a bare `Exception`; the others are Python built-ins. -/
inductive PyErr where
  | rinex | value | type | key | index | overflow | zeroDiv | assertion
  | header | label | nm | uncompress | cfg | attribute | os | exit | exc
  deriving DecidableEq, Repr

/-- `except (ValueError, ...)`: run the handler when the class is listed. -/
def catching {α : Type u} (x : Except PyErr α) (cls : List PyErr) (h : Except PyErr α) : Except PyErr α :=
  match x with
  | .ok a => .ok a
  | .error e => if e ∈ cls then h else .error e

@[simp] theorem catching_ok {α : Type u} (a : α) (cls h) :
    catching (.ok a : Except PyErr α) cls h = .ok a := rfl

@[simp] theorem catching_error {α : Type u} (e : PyErr) (cls) (h : Except PyErr α) :
    catching (.error e : Except PyErr α) cls h = if e ∈ cls then h else .error e := rfl

end Verif.Py
