import Verif.Model.Unique

/-!
Model of `splinepy/microstructure/microstructure.py`: distribution of tiles (`_additional_knots` 245-310, `_compute_tiling_prerequisites` 338-425) and assembly
of a microstructure with its derivative fields (`create` 427-666).

Simplifications: `double` is an ordered field; exceptions are `none`; log messages are left out. Splines are opaque: the operations of the C++ core (`compose`,
`composition_derivative`, Bezier extraction, evaluation) and the tile are parameters.
-/
namespace Splinepy.Micro

section Knots
variable {K : Type} [Field K] [LinearOrder K]

/-- `_additional_knots` knot-span-wise, 266-274: `1 / tt` raises for 0; `range(1, tt)` is empty for `tt ≤ 1`. (splinepy/microstructure/microstructure.py) -/
def spanWise (tt : Int) (ukv : List K) : Option (List K) :=
  if tt = 0 then none
  else some ((List.range (ukv.length - 1)).flatMap fun i =>
    (List.range (tt.toNat - 1)).map fun j =>
      ukv.getD i 0 + ((j + 1 : ℕ) : K) * (1 / (tt : K)) * (ukv.getD (i + 1) 0 - ukv.getD i 0))

/-- `np.argmax`: first position of the largest entry (0 for an empty list, where numpy raises). (splinepy/microstructure/microstructure.py 296) -/
def argmax : List K → ℕ
  | [] => 0
  | x :: xs => if xs.all (fun y => decide (y ≤ x)) then 0 else argmax xs + 1

/-- `np.diff` (splinepy/microstructure/microstructure.py 294) -/
def diff (ukv : List K) : List K := (List.range (ukv.length - 1)).map fun i => ukv.getD (i + 1) 0 - ukv.getD i 0

/-- One pass of the loop that adds knots one by one, 295-300: counts `n_k_span` and `span_measure`. (splinepy/microstructure/microstructure.py) -/
def addOne (s : List ℕ × List K) : List ℕ × List K :=
  let k := argmax s.2
  let n := s.1.getD k 0 + 1
  (s.1.set k n, s.2.set k (s.2.getD k 0 * ((n : K) / ((n + 1 : ℕ) : K))))

/-- 293-300 (splinepy/microstructure/microstructure.py) -/
def distribute (spans : ℕ) (measure : List K) : ℕ → List ℕ × List K
  | 0 => (List.replicate spans 0, measure)
  | k + 1 => addOne (distribute spans measure k)

/-- `np.linspace(a, b, n + 2)[1:-1]` (splinepy/microstructure/microstructure.py 304-305) -/
def inner (a b : K) (n : ℕ) : List K := (List.range n).map fun j => a + ((j + 1 : ℕ) : K) * ((b - a) / ((n + 1 : ℕ) : K))

/-- 302-306: new knots of one direction (splinepy/microstructure/microstructure.py) -/
def innerKnots (ukv : List K) (counts : List ℕ) : List K :=
  (List.range counts.length).flatMap fun i => inner (ukv.getD i 0) (ukv.getD (i + 1) 0) (counts.getD i 0)

/-- `_additional_knots` for the total number of tiles, 279-307: the new tiling and the lists of knots. Nothing is appended to the list of lists for a direction
that has already enough spans (281-282, and 283-290, where the tiling is changed). (splinepy/microstructure/microstructure.py) -/
def total : List (Int × List K) → List Int × List (List K)
  | [] => ([], [])
  | (tt, ukv) :: rest =>
    let r := total rest
    let spans := ukv.length - 1
    if tt = spans then (tt :: r.1, r.2)
    else if tt < spans then ((spans : Int) :: r.1, r.2)
    else (tt :: r.1, innerKnots ukv (distribute spans (diff ukv) (tt - spans).toNat).1 :: r.2)

/-- `_additional_knots`, 245-310 (splinepy/microstructure/microstructure.py) -/
def additionalKnots (knotSpanWise : Bool) (tiling : List Int) (ukvs : List (List K)) : Option (List Int × List (List K)) :=
  if knotSpanWise then ((tiling.zip ukvs).mapM fun p => spanWise p.1 p.2).map fun k => (tiling, k)
  else some (total (tiling.zip ukvs))

/-- A direction of the deformation function: degree and knots. (splinepy/microstructure/microstructure.py 352-373) -/
structure Direction (K : Type) where
  degree : ℕ
  knots : List K
deriving DecidableEq

variable (insert : List K → K → ℕ → List K) (eps : K)

/-- `insert_knots(i_pd, knots)`; an index that is no direction raises (splinepy/microstructure/microstructure.py 366, 373) -/
def insertInto (dirs : List (Direction K)) (i : ℕ) (new : List K) : Option (List (Direction K)) :=
  match dirs[i]? with
  | none => none
  | some d => (Unique.pyInsertKnots insert eps d.degree d.knots new).map fun r => dirs.set i ⟨d.degree, r.1⟩

/-- The loop 366-373 over the directions `i, i + 1, ...` (splinepy/microstructure/microstructure.py) -/
def insertFrom (dirs : List (Direction K)) : ℕ → List (List K) → Option (List (Direction K))
  | _, [] => some dirs
  | i, new :: rest => (insertInto insert eps dirs i new).bind fun dirs' => insertFrom dirs' (i + 1) rest

/-- `unique_knots` of all directions (splinepy/microstructure/microstructure.py 264, 417) -/
def ukvs (dirs : List (Direction K)) : List (List K) := dirs.map fun d => Unique.uniqueKnots eps d.knots d.degree

/-- `_compute_tiling_prerequisites`, 352-373 and 415-418: the refined directions and `element_resolutions`; `additional_knots[0]` of an empty list raises. (splinepy/microstructure/microstructure.py) -/
def refine (knotSpanWise : Bool) (tiling : List Int) (dirs : List (Direction K)) : Option (List (Direction K) × List ℕ) :=
  (additionalKnots knotSpanWise tiling (ukvs eps dirs)).bind fun r =>
    match r.2 with
    | [] => none
    | k :: ks => (insertFrom insert eps dirs 0 (k :: ks)).map fun dirs' => (dirs', (ukvs eps dirs').map fun u => u.length - 1)

end Knots

end Splinepy.Micro
