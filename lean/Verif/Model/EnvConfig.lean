/-
metcalcpy/util/read_env_vars_in_config.py: environment variables in the values of a configuration file.
The YAML parser is not modelled; texts are lists of characters.
-/
import Verif.Model.Base

namespace Metcalcpy

/-- `\w`.  Simplification: ASCII letters, digits and the underscore (Python also accepts other alphabets). -/
def isWordChar (c : Char) : Bool := c.isAlphanum || c == '_'

/-- metcalcpy/util/read_env_vars_in_config.py:35,51: `re.compile('.*?\${(\w+)}.*?').findall(value)`: the names of the
references `${name}`, from left to right.  `fuel` bounds the number of characters. -/
def findRefs : ℕ → List Char → List (List Char)
  | 0, _ => []
  | _, [] => []
  | fuel + 1, c :: s =>
    if c = '$' ∧ s.head? = some '{' then
      let w := s.tail.takeWhile isWordChar
      let rest := s.tail.dropWhile isWordChar
      if w ≠ [] ∧ rest.head? = some '}' then w :: findRefs fuel rest.tail else findRefs fuel s
    else findRefs fuel s

/-- `str.replace(pat, rep)` for a pattern that is not empty: all occurrences that do not overlap, from left to right. -/
def replaceAll (pat rep : List Char) : ℕ → List Char → List Char
  | 0, s => s
  | _, [] => []
  | fuel + 1, c :: s =>
    if pat.isPrefixOf (c :: s) then rep ++ replaceAll pat rep fuel ((c :: s).drop pat.length)
    else c :: replaceAll pat rep fuel s

/-- `f'${{{g}}}'`. -/
def refText (g : List Char) : List Char := '$' :: '{' :: (g ++ ['}'])

/-- metcalcpy/util/read_env_vars_in_config.py:42-59 constructor_env_variables, for the text of a scalar; `env` is the
environment. -/
def expandEnv (env : List Char → Option (List Char)) (value : List Char) : List Char :=
  let found := findRefs value.length value
  found.foldl (fun full g => replaceAll (refText g) ((env g).getD g) full.length full) value

end Metcalcpy
