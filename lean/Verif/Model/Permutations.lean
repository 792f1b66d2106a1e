/-
metcalcpy/util/utils.py:809-853 create_permutations and 1041-1098 create_permutations_mv.
-/
import Verif.Model.Base

namespace Metcalcpy

/-- metcalcpy/util/utils.py:848-853 create_permutations: `[p for p in itertools.product(*vals_list)]`.
`itertools.product` is modelled by its documented equivalent:
`result = [[]]; for pool in pools: result = [x+[y] for x in result for y in pool]`. -/
def createPermutations {α : Type} (inputList : List (List α)) : List (List α) :=
  inputList.foldl (fun result pool => result.flatMap fun x => pool.map fun y => x ++ [y]) [[]]

/-- An element of the list returned by `create_permutations_mv`: either one of the raw values or a
Python list of values.  Simplification: the raw values themselves are not Python lists. -/
inductive MvItem (α : Type)
  | raw (a : α)
  | list (as : List α)
  deriving DecidableEq, Repr

/-- metcalcpy/util/utils.py:1087-1098: the nested loops, outer over the permutations of the later
lists, inner over the values of the current list. -/
def mvCombine {α : Type} (values : List α) (valNext : List (MvItem α)) : List (MvItem α) :=
  valNext.flatMap fun el => values.map fun v =>
    match el with
    | .list as => .list (v :: as)        -- 1091-1094
    | .raw a => .list [v, a]             -- 1096-1097

/-- metcalcpy/util/utils.py:1041-1098 create_permutations_mv on a list of lists, from position `index`
on (`rest` is `fields_values[index:]`).  `[]` corresponds to an empty `fields_values` for index 0. -/
def mvFrom {α : Type} : List (List α) → List (MvItem α)
  | [] => []                                        -- 1070-1071
  | [values] => values.map .raw                     -- 1076-1077
  | values :: rest =>
    if values.isEmpty then mvFrom rest              -- 1083-1084
    else mvCombine values (mvFrom rest)

/-- create_permutations_mv(list, index): an index outside a non-empty list is an IndexError
(line 1073). -/
def createPermutationsMvList {α : Type} (fieldsValues : List (List α)) (index : ℕ) :
    Except PyErr (List (MvItem α)) :=
  if fieldsValues = [] then .ok []
  else if fieldsValues.length ≤ index then .error .indexError
  else .ok (mvFrom (fieldsValues.drop index))

/-- create_permutations_mv(dict, index), lines 1052-1068: empty entries are dropped first, the order
is the insertion order of the dictionary. -/
def createPermutationsMvDict {α : Type} (fieldsValues : List (String × List α)) (index : ℕ) :
    Except PyErr (List (MvItem α)) :=
  createPermutationsMvList ((fieldsValues.map Prod.snd).filter fun v => !v.isEmpty) index

end Metcalcpy
