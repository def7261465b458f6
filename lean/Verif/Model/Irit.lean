import Verif.Model.Files

/-!
Model of irit files: splinepy/io/irit.py, and of `expand_tabs` (splinepy/io/ioutils.py 102-131).

A file is the list of its tokens; white space separates tokens and is left out (lines are joined by spaces, irit.py 40-55); upper and lower case are not distinguished. Writing a
number and reading it again is taken to be exact (`str` prints floats such that they are read back exactly, and never as `e` or `p` followed by a digit).
-/
namespace Splinepy.Irit
open SplineCore Files

variable {K : Type} [Field K] [LinearOrder K]

/-- Tokens of a file, splinepy/io/irit.py 40-257. -/
inductive Tok (K : Type)
  | lb
  | rb
  /-- `object`, `curve`, `surface`, ... -/
  | word (w : String)
  /-- `bspline` (true) or `bezier` -/
  | kind (bspline : Bool)
  | int (n : Int)
  | num (x : K)
  /-- `p3` (rational) or `e3` -/
  | dim (rational : Bool) (n : ℕ)
  | kv
deriving DecidableEq

/-! ### export -/

/-- `PARA_DIM_KEYS`, irit.py 14. -/
def paraDimKey (n : ℕ) : String := if n = 1 then "curve" else if n = 2 then "surface" else if n = 3 then "trivar" else "multivar"

/-- `[` ... `]` (splinepy/io/irit.py 166-257) -/
def wrap (l : List (Tok K)) : List (Tok K) := .lb :: l ++ [.rb]

/-- `isinstance(spline, BSplineBase)` (splinepy/io/irit.py 205, 226) -/
def isBSpline : Cls → Bool
  | .bspline | .nurbs => true
  | _ => false

/-- `isinstance(spline, BezierBase)` (splinepy/io/irit.py 202) -/
def isBezier : Cls → Bool
  | .bezier | .rationalBezier => true
  | _ => false

/-- Type, resolutions, orders and dimension, irit.py 201-223, without the bracket and the key of the parametric dimension. -/
def head (o : Obj K) : List (Tok K) :=
  (if isBezier o.cls then [.kind false] else []) ++ (if isBSpline o.cls then .kind true :: (resolutions o.core).map .int else []) ++
    o.core.degrees.map (fun d => .int (d + 1)) ++ [.dim o.core.ws.isSome o.core.cps.dim]

/-- Brackets with knot vectors, irit.py 225-230; `none`: the spline has none. -/
def kvGroups (o : Obj K) : Option (List (List (Tok K))) :=
  if isBSpline o.cls then o.core.kvs.map fun l => l.map fun kv => Tok.kv :: kv.map .num else some []

/-- Brackets with control points, irit.py 232-251. -/
def cpGroups (o : Obj K) : List (List (Tok K)) :=
  match o.core.ws with
  | some ws => List.zipWith (fun w (r : List K) => Tok.num w :: r.map fun x => .num (w * x)) ws o.core.cps.rows
  | none => o.core.cps.rows.map fun r => r.map .num

/-- One spline, irit.py 196-254. -/
def exportOne (o : Obj K) : Option (List (Tok K)) :=
  (kvGroups o).map fun g => .lb :: .word (paraDimKey o.core.degrees.length) :: head o ++ (g ++ cpGroups o).flatMap wrap ++ [.rb]

/-- `export`, irit.py 166-257. -/
def exportFile (objs : List (Obj K)) : Option (List (Tok K)) := (objs.mapM exportOne).map fun l => .lb :: .word "object" :: l.flatten ++ [.rb]

/-! ### load -/

/-- `re.split` at the words `bspline` and `bezier`, irit.py 59: the text before the first one, and type and text of each part. -/
def splitKinds : List (Tok K) → List (Tok K) × List (Bool × List (Tok K))
  | [] => ([], [])
  | .kind b :: ts => ([], (b, (splitKinds ts).1) :: (splitKinds ts).2)
  | t :: ts => (t :: (splitKinds ts).1, (splitKinds ts).2)

/-- The text before the first `]]`, irit.py 70. -/
def beforeClose : List (Tok K) → List (Tok K)
  | [] => []
  | .rb :: .rb :: _ => []
  | t :: ts => t :: beforeClose ts

/-- Split at the dimensions, irit.py 73. `none`: not exactly one, 76-83. -/
def splitDim (ts : List (Tok K)) : Option (List (Tok K) × (Bool × ℕ) × List (Tok K)) :=
  match ts with
  | [] => none
  | .dim r n :: ts => if ts.any (fun t => match t with | .dim _ _ => true | _ => false) then none else some ([], (r, n), ts)
  | t :: ts => (splitDim ts).map fun x => (t :: x.1, x.2)

/-- the first decimal digit, dropping at most `k` digits (splinepy/io/irit.py 73, 86) -/
def firstDigit : ℕ → ℕ → ℕ
  | 0, n => n
  | k + 1, n => if n < 10 then n else firstDigit k (n / 10)

/-- The dimension that is read: the pattern `e\d` takes one digit, irit.py 73, 86; the other digits stay in front of the first bracket, where they are ignored (107). -/
def readDim (n : ℕ) : ℕ := firstDigit n n

/-- `int(s)`, irit.py 90-92 -/
def intOf : Tok K → Option Int
  | .int n => some n
  | _ => none

/-- `findall(r"\[(.*?)\]")`, irit.py 107; the first argument is the content of the bracket read at the moment. -/
def groups : Option (List (Tok K)) → List (Tok K) → List (List (Tok K))
  | _, [] => []
  | none, .lb :: ts => groups (some []) ts
  | none, _ :: ts => groups none ts
  | some g, .rb :: ts => g :: groups none ts
  | some g, t :: ts => groups (some (g ++ [t])) ts

/-- The token opens a knot vector, splinepy/io/irit.py 107-142. -/
def isKv (t : Tok K) : Bool := match t with | .kv => true | _ => false

/-- numbers, `np.fromstring` (splinepy/io/irit.py 113-157) -/
def valueOf : Tok K → Option K
  | .int n => some (n : K)
  | .num x => some x
  | _ => none

/-- `s.split("kv")[1]`, irit.py 140 -/
def afterKv (g : List (Tok K)) : List (Tok K) := ((g.dropWhile fun t => !isKv t).drop 1).takeWhile fun t => !isKv t

/-- Control points, irit.py 108-121. A weight of zero gives `nan` or `inf` in the code. -/
def coordinates (rational : Bool) (dim : ℕ) (l : List K) : Option (List K × List (List K)) :=
  if rational then (reshape (dim + 1) l.length l).map fun rows => (rows.map fun r => r.headD 0, rows.map fun r => r.tail.map fun x => x / r.headD 0)
  else (reshape dim l.length l).map fun rows => ([], rows)

/-- Knot vectors, irit.py 137-158. `none`: not as many as parametric dimensions. -/
def knotVectors (bspline : Bool) (paraDim : ℕ) (gs : List (List (Tok K))) : Option (Option (List (List K))) :=
  let kvGroups := (gs.filter fun g => g.any isKv).map afterKv
  if !bspline then some none else if kvGroups.length ≠ paraDim then none else (kvGroups.mapM fun g : List (Tok K) => g.mapM valueOf).map some

/-- The dictionary of one spline, irit.py 66-158. -/
def loadDict (bspline : Bool) (data : List (Tok K)) : Option (Props K) := do
  let (before, (rational, n), after) ← splitDim (beforeClose data ++ [.rb])
  let degInfo ← before.mapM intOf
  let orders := if bspline then degInfo.drop (degInfo.length / 2) else degInfo
  let nCtps := if bspline then (degInfo.take (degInfo.length / 2)).prod else degInfo.prod
  let gs := groups none after
  let numbers ← ((gs.filter fun g => !g.any isKv).flatten).mapM valueOf
  let (ws, rows) ← coordinates rational (readDim n) numbers
  if (rows.length : Int) ≠ nCtps then none
  else do
    let kvs ← knotVectors bspline orders.length gs
    some { degrees := some (orders.map (· - 1)), kvs := kvs, cps := some ⟨readDim n, rows⟩, ws := if rational then some ws else none }

/-- `load`, irit.py 17-163. -/
def load (maxDim : ℕ) (f : List (Tok K)) : Option (List (Obj K)) :=
  (splitKinds f).2.mapM fun p => (loadDict p.1 p.2).bind (dictToSpline maxDim)

/-! ### expand_tabs -/

/-- Files by name. (splinepy/io/ioutils.py 102-131) -/
abbrev Disk := List (List Char × List Char)

/-- `expand_tabs`, ioutils.py 102-131: the result of `replace` is not used. `split` is `os.path.split`. `none`: no such file. -/
def expandTabs (split : List Char → List Char × List Char) (disk : Disk) (fname : List Char) (overwrite : Bool) : Option Disk :=
  let out := if overwrite then fname else (split fname).1 ++ "copy_".toList ++ (split fname).2
  (disk.lookup fname).map fun content => (out, content) :: disk

end Splinepy.Irit
