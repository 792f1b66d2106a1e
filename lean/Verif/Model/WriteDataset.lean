/-
metcalcpy/vertical_interp.py:476-546  write_dataset, up to the reference time: an xarray Dataset written to a NetCDF file.
-/
import Verif.Model.Base

namespace Metcalcpy

/-- A coordinate of a Dataset: type of its numbers and values; for `time` the values are nanoseconds since 1970. -/
structure DsCoord where
  dtype : String
  values : List ℚ
  deriving DecidableEq, Repr

/-- A field of a Dataset: name, type, dimensions, values (flattened) and attributes. -/
structure DsField where
  name : String
  dtype : String
  dims : List String
  values : List ℚ
  attrs : List (String × String)
  deriving DecidableEq, Repr

/-- An xarray Dataset. -/
structure XrDataset where
  dims : List String
  coords : String → Option DsCoord
  fields : List DsField
  attrs : List (String × String)

/-- A variable of a NetCDF file. -/
structure NcVar where
  name : String
  dtype : String
  dims : List String
  values : List ℚ
  attrs : List (String × String)
  deriving DecidableEq, Repr

/-- A NetCDF file (one group). -/
structure NcFile where
  dims : List (String × ℕ)
  vars : List NcVar
  attrs : List (String × String)
  deriving DecidableEq, Repr

/-- Exceptions of Python and the RuntimeError of the NetCDF library for a name in use. -/
inductive NcErr where
  | python (e : PyErr)
  | nameInUse (name : String)
  deriving DecidableEq, Repr

/-- The empty file of `nc.Dataset(filename, 'w')` (line 688). -/
def NcFile.empty : NcFile := ⟨[], [], []⟩

/-- `createDimension`. -/
def NcFile.createDimension (f : NcFile) (name : String) (size : ℕ) : Except NcErr NcFile :=
  if name ∈ f.dims.map Prod.fst then .error (.nameInUse name)
  else .ok { f with dims := f.dims ++ [(name, size)] }

/-- The largest value plus one and whether there are negative values, for types of whole numbers. -/
def wholeType : String → Option (ℤ × Bool)
  | "uint32" => some (2 ^ 32, false)
  | "uint64" => some (2 ^ 64, false)
  | "int32" => some (2 ^ 32, true)
  | "int64" => some (2 ^ 64, true)
  | _ => none

/-- The value stored in a variable of a type: floats as they are (no rounding), whole numbers cut and taken modulo the size of the type. -/
def storedAs (dtype : String) (q : ℚ) : ℚ :=
  match wholeType dtype with
  | none => q
  | some (m, signed) =>
    let z := (if q < 0 then ⌈q⌉ else ⌊q⌋) % m
    if signed && decide (m ≤ 2 * z) then ((z - m : ℤ) : ℚ) else (z : ℚ)

/-- `createVariable` followed by the assignment of values.  Simplification: the number of values is not checked. -/
def NcFile.createVariable (f : NcFile) (name dtype : String) (dims : List String) (values : List ℚ) : Except NcErr NcFile :=
  if name ∈ f.vars.map NcVar.name then .error (.nameInUse name)
  else if dims.all (fun d => (f.dims.map Prod.fst).contains d) then
    .ok { f with vars := f.vars ++ [⟨name, dtype, dims, values.map (storedAs dtype), []⟩] }
  else .error (.python .valueError)

/-- `setattr` of one attribute in a list of attributes. -/
def setAttr (l : List (String × String)) (a : String × String) : List (String × String) :=
  if a.1 ∈ l.map Prod.fst then l.map fun b => if b.1 = a.1 then a else b else l ++ [a]

/-- `setattr(var, attr, value)` of the variable with a name. -/
def NcFile.setVarAttrs (f : NcFile) (var : String) (attrs : List (String × String)) : NcFile :=
  { f with vars := f.vars.map fun v => if v.name = var then { v with attrs := attrs.foldl setAttr v.attrs } else v }

/-- Lines 485, 521: the types written as they are. -/
def plainTypes : List String := ["uint32", "uint64", "int32", "int64", "float32", "float64"]

/-- Lines 490-498: the values of a coordinate; times are seconds since the first one.  Simplification: the rounding of the times to
microseconds is not modelled. -/
def coordValues (dim : String) (values : List ℚ) : List ℚ :=
  if dim = "time" then values.map fun t => (t - values.headD 0) / 1000000000 else values

/-- Lines 482-498: one dimension. -/
def writeDim (ds : XrDataset) (f : NcFile) (dim : String) : Except NcErr NcFile :=
  match ds.coords dim with
  | none => .error (.python .keyError)
  | some c => do
    let f ← f.createDimension dim c.values.length
    let dtype := if c.dtype ∈ plainTypes then c.dtype else "float64"
    f.createVariable dim dtype [dim] (coordValues dim c.values)

/-- Lines 500-510: the dimension `valid_time`; `lead` is the difference of valid time and initial time in seconds, and the text of the
initial time. -/
def writeValidTime (lead : Except PyErr (ℚ × String)) (f : NcFile) : Except NcErr NcFile := do
  let f ← f.createDimension "valid_time" 1
  match lead with
  | .error e => .error (.python e)
  | .ok q => do
    let f ← f.createVariable "valid_time" "float64" ["valid_time"] [q.1]
    return f.setVarAttrs "valid_time" [("long_name", "valid_time"), ("units", "seconds since " ++ q.2)]

/-- Lines 519-539: one field; the second part of the state is the variable the name `var` refers to. -/
def writeField (createTime : Bool) (s : NcFile × Option String) (x : DsField) : Except NcErr (NcFile × Option String) := do
  let dtype := if x.dtype ∈ plainTypes then x.dtype else "uint64"
  let s ← if createTime then
      if x.name ≠ "valid_time" then do
        let f ← s.1.createVariable x.name dtype ("valid_time" :: x.dims) x.values
        pure (f, some x.name)
      else pure s
    else do
      let f ← s.1.createVariable x.name dtype x.dims x.values
      pure (f, some x.name)
  if x.attrs = [] then .ok s
  else match s.2 with
    | none => .error (.python .unboundLocalError)
    | some v => .ok (s.1.setVarAttrs v x.attrs, s.2)

/-- Lines 476-543 write_dataset into an empty file, without reference time.  The loop of lines 512-518 only writes to the log. -/
def writeDataset (lead : Except PyErr (ℚ × String)) (createTime : Bool) (ds : XrDataset) : Except NcErr NcFile := do
  let f ← ds.dims.foldlM (writeDim ds) NcFile.empty
  let f ← if createTime then writeValidTime lead f else pure f
  let s ← ds.fields.foldlM (writeField createTime) (f, none)
  return { s.1 with attrs := ds.attrs.foldl setAttr s.1.attrs }

end Metcalcpy
