import Verif.Model.Threads

/-!
Model of the consistency checks of multipatches, `src/py/py_multipatch.cpp` 113-394, 1084-1126, 1535-1608.

A patch is described by the attributes the checks look at. Simplifications: `int` is unbounded; the text of the messages is left out, a report is
the list of `(key, indices)` (lines 223-237, 363-377: an `unordered_map`, its order is not meant to matter; here the order in which the keys are
registered).
-/
namespace Splinepy.Mismatch
open Splinepy.Threads

/-- attributes of a spline, as given by `SplinepySplineName`, `SplinepyParaDim`, `SplinepyDim`, `SplinepyCurrentProperties`,
`SplinepyControlMeshResolutions` and `SplinepyIsNull` (src/py/py_multipatch.cpp 113-394) -/
structure Patch where
  name : String
  paraDim : ℕ
  dim : ℕ
  degrees : List ℕ
  cmr : List ℕ
  isNull : Bool
deriving DecidableEq, Inhabited

/-- result of a check: accepted, or raised with a report (src/py/py_multipatch.cpp 223-254, 363-394) -/
inductive Verdict where
  | ok
  | raised (report : List (String × List ℕ))
deriving DecidableEq

/-- lines 218-241, 358-382: each thread pushes the indices with a mismatch to its own vector (one per registered key, `mismatches[key].resize(nthreads)`),
the vectors are concatenated, and the function raises if any of them is not empty.
`checks`: registered keys, with the condition under which index `i` is pushed. `none`: undefined behaviour or an endless loop. (src/py/py_multipatch.cpp) -/
def collect (hw n : ℕ) (nthreads : ℤ) (checks : List (String × (ℕ → Bool))) : Option Verdict :=
  if nthreads < 0 then none                                                          -- std::length_error of resize
  else
    match stridedThreads hw n nthreads with
    | none => none
    | some ts =>
      let report := checks.map (fun c => (c.1, (ts.map (fun t => t.filter c.2)).flatten))
      if report.any (fun r => decide (r.2 ≠ [])) then some (.raised report) else some .ok

/-- `RaiseMismatch`, first overload, lines 113-254. `none`: undefined behaviour. (src/py/py_multipatch.cpp) -/
def raiseMismatch (hw : ℕ) (splist : List Patch) (name : String) (paraDim dim : ℤ) (degrees cmr : List ℕ) (nthreads : ℤ) : Option Verdict :=
  let checkName : Bool := decide (name ≠ "")                                        -- line 133
  let checkDim : Bool := decide (dim > 0)                                           -- line 137
  let checkDegrees : Bool := decide (degrees.length > 0)                            -- line 141
  let checkCmr : Bool := decide (cmr.length > 0)                                    -- line 146
  let refParaDim : ℤ := if checkDegrees then degrees.length else paraDim            -- lines 130, 143
  let checkParaDim : Bool := decide (paraDim > 0) || checkDegrees || checkCmr       -- line 150
  -- lines 154-165
  if checkParaDim && [paraDim, (degrees.length : ℤ), (cmr.length : ℤ)].any (fun c => decide (c ≠ refParaDim ∧ c > 0)) then
    some (.raised [])
  else
    let sp := fun i => splist.getD i default
    let live := fun i => !(sp i).isNull                                             -- lines 179-181
    let pdOk := fun i => !(checkParaDim && decide (refParaDim ≠ (sp i).paraDim))    -- lines 184, 190-193
    collect hw splist.length nthreads
      ((if checkName then [("name", fun i => live i && decide (name ≠ (sp i).name))] else [])                       -- lines 187-189
        ++ (if checkDim then [("dim", fun i => live i && decide (dim ≠ (sp i).dim))] else [])                       -- lines 194-196
        ++ (if checkDegrees then [("degrees", fun i => live i && pdOk i && decide ((sp i).degrees ≠ degrees))] else [])  -- lines 199-207
        ++ (if checkCmr then [("control_mesh_resolutions", fun i => live i && pdOk i && decide ((sp i).cmr ≠ cmr))] else [])  -- lines 208-213
        ++ (if checkParaDim then [("para_dim", fun i => live i && decide (refParaDim ≠ (sp i).paraDim))] else []))  -- lines 190-193

/-- `RaiseMismatch`, second overload, lines 256-394. (src/py/py_multipatch.cpp) -/
def raiseMismatch2 (hw : ℕ) (l0 l1 : List Patch) (name dimensionality : Bool) (fieldDim : ℤ) (degrees cmr : Bool) (nthreads : ℤ) : Option Verdict :=
  if l0.length ≠ l1.length then some (.raised [])                                   -- lines 265-271
  else
    let p := fun i => l0.getD i default
    let q := fun i => l1.getD i default
    let live := fun i => !((q i).isNull || (p i).isNull)                            -- lines 316-318
    let pdOk := fun i => !(dimensionality && decide ((p i).paraDim ≠ (q i).paraDim))  -- lines 303-310
    collect hw l0.length nthreads
      ((if name then [("name", fun i => live i && decide ((p i).name ≠ (q i).name))] else [])                         -- lines 320-323
        ++ (if dimensionality then [("dim", fun i => decide (fieldDim ≠ (q i).dim))] else [])                         -- lines 311-313
        ++ (if degrees then [("degrees", fun i => live i && pdOk i && decide ((p i).degrees ≠ (q i).degrees))] else [])  -- lines 331-344
        ++ (if cmr then [("control_mesh_resolutions", fun i => live i && pdOk i && decide ((p i).cmr ≠ (q i).cmr))] else [])  -- lines 346-353
        ++ (if dimensionality || degrees || cmr then                                                                  -- lines 287-289
            [("para_dim", fun i => dimensionality && decide ((p i).paraDim ≠ (q i).paraDim))] else []))               -- lines 306-310

/-- the data of a multipatch that these functions read and write (src/py/py_multipatch.cpp 1084-1126, 1535-1608) -/
structure Multipatch where
  patches : List Patch
  fields : List (List Patch)
deriving DecidableEq

/-- result of a call: normal return, exception, or crash (undefined behaviour, or an exception that leaves a thread) (src/py/py_multipatch.cpp 1084-1102, 1535-1608) -/
inductive Outcome (α : Type) where
  | returned (a : α)
  | raised (a : α)
  | crashed
deriving DecidableEq

/-- `SetPatchesNThreads`, lines 1084-1102 (`Clear` empties the list of fields, line 1081). An empty list: line 1097 reads `core_patches_[0]`. (src/py/py_multipatch.cpp) -/
def setPatches (hw : ℕ) (nthreads : ℤ) (_old : Multipatch) (patches : List Patch) : Outcome Multipatch :=
  let new : Multipatch := { patches := patches, fields := [] }                      -- lines 1086-1092
  match patches with
  | [] => .crashed
  | p :: _ =>
    match raiseMismatch hw patches "" p.paraDim p.dim [] [] nthreads with
    | none => .crashed
    | some .ok => .returned new
    | some (.raised _) => .raised new

/-- element of a field list: `None` or a spline (src/py/py_multipatch.cpp 1104-1126) -/
abbrev FieldEntry := Option Patch

/-- `SetPatchesWithNullSplines`, lines 1104-1126, after the conversion: all entries must have the dimensions of the first one. Outer `none`: undefined behaviour
(line 1121 on an empty vector); inner `none`: exception. (src/py/py_multipatch.cpp) -/
def checkField (ps : List Patch) : Option (Option (List Patch)) :=
  match ps with
  | [] => none
  | p :: _ =>
    match raiseMismatch 0 ps "" p.paraDim p.dim [] [] 1 with
    | none => none
    | some .ok => some (some ps)
    | some (.raised _) => some none

/-- conversion of one field, lines 58-86 and 1104-1126: `None` becomes the null spline of the hinted dimensions.
`kNullSplineLookup` has entries for dimensions from 1 to `maxDim`, which is 3 if the library is compiled for dimensions up to 10 (`SPLINEPY_MORE`),
and 10 if not (`include/splinepy/splines/null_spline.hpp` 128-134). Outer `none`: undefined behaviour; inner `none`: exception. -/
def makeField (maxDim : ℕ) (paraDim : ℕ) (fieldDim : ℤ) (entries : List FieldEntry) : Option (Option (List Patch)) :=
  if entries.any (fun e => e.isNone) && !(decide (1 ≤ paraDim ∧ paraDim ≤ maxDim ∧ 1 ≤ fieldDim ∧ fieldDim ≤ maxDim)) then none
  else
    checkField (entries.map (fun e => e.getD ⟨"NullSpline", paraDim, fieldDim.toNat, [], [], true⟩))

/-- `AddFields`, lines 1535-1608. The fields are distributed in chunks; with two or more threads, an index beyond the list (`fields[i]`, line 1561) and an
exception of the constructor (lines 1563-1564, outside of the `try`) end the process (`std::terminate`); without threads the exception is passed on. (src/py/py_multipatch.cpp) -/
def addFields (hw maxDim : ℕ) (m : Multipatch) (fields : List (List FieldEntry)) (fieldDim : ℤ)
    (checkName checkDims checkDegrees checkCmr : Bool) (nthreads : ℤ) : Outcome Multipatch :=
  match m.patches with
  | [] => .raised m                                                                 -- CorePatches(), lines 1064-1069 via line 1548
  | p0 :: _ =>
    match chunkThreads hw fields.length nthreads with
    | none => .crashed
    | some ts =>
      match ts.flatten.mapM (fun i => (fields[i]?).bind (makeField maxDim p0.paraDim fieldDim)) with
      | none => .crashed
      | some converted =>
        match converted.mapM id with
        | none => if 2 ≤ (if nthreads < 0 then (hw : ℤ) else nthreads) then .crashed else .raised m
        | some lists =>
          match lists.mapM (fun l => raiseMismatch2 0 m.patches l checkName checkDims fieldDim checkDegrees checkCmr 1) with
          | none => .crashed
          | some verdicts =>
            if verdicts.any (fun v => decide (v ≠ .ok)) then .raised m              -- lines 1594-1596
            else .returned { m with fields := m.fields ++ lists }                   -- lines 1598-1607

end Splinepy.Mismatch
