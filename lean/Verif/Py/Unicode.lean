import Verif.Py.Str

/-!
# Unicode tables

`\w` of Python's `re` on `str` is `str.isalnum()` or underscore.  The Unicode tables behind it depend on
the Python version, so the table is a parameter; it is only known on ASCII.
All theorems hold for every table satisfying the law. -/

namespace Verif

/-- The `\w` character class of Python's `re` (unicode mode), used by snuba_sdk/column.py:14 and
function.py:28. Parameter; pinned on ASCII only. -/
class PyUnicode where
  isWord : Char → Bool
  ascii : ∀ c : Char, c.toNat < 128 → isWord c = (isAlpha c || isDigit c || c == '_')

/-- The ASCII-only table: shows that the class is inhabited; used in examples. -/
@[reducible] def asciiUnicode : PyUnicode where
  isWord c := isAlpha c || isDigit c || c == '_'
  ascii _ _ := rfl

end Verif
