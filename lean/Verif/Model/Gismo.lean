import Verif.Model.Index
import Verif.Model.Multipatch
import Mathlib.Data.Nat.Basic

/-!
Model of the topology and of the field supports in gismo files, splinepy/io/gismo.py.

Simplifications: the text of an xml element is the list of the numbers in it (`str` of an integer followed by `np.fromstring` is the identity for the
integers in question); an empty text is read back as `None` and written here as the empty list. The table of interfaces is the flat array of
`multipatch.interfaces`.
-/
namespace Splinepy.Gismo

/-! ### topology -/

/-- First four columns of `interface_orientations`, py_multipatch.cpp 736-754, followed by the `2 * para_dim` entries of the orientation, which are a parameter
(`orient`, model in Model/Orientation.lean). -/
def orientationRows (f : ℕ) (orient : ℕ → List Int) (t : List Int) : List (List Int) :=
  ((List.range t.length).filter fun i => decide (t.getD i 0 ≥ 0 ∧ t.getD i 0 > (i : Int))).map fun (i : ℕ) =>
    [((i / f : ℕ) : Int), ((i % f : ℕ) : Int), t.getD i 0 / f, t.getD i 0 % f] ++ orient i

/-- Offsets of gismo.py 336-337, one row. -/
def addOffset (off : Int) (row : List Int) : List Int :=
  match row with
  | a :: b :: c :: d :: rest => (a + off) :: (b + 1) :: (c + off) :: (d + 1) :: rest
  | r => r

/-- The `MultiPatch` element. (splinepy/io/gismo.py 320-440) -/
structure Xml where
  parDim : ℕ
  patches : Int × Int
  interfaces : List Int
  boundaries : List (List Int)

/-- `export`, gismo.py 306-371 and 435: topology of a multipatch with `n` patches. -/
def exportTopology (labeled : Bool) (parDim n : ℕ) (orient : ℕ → List Int) (t : List Int) : Xml :=
  let f := 2 * parDim
  let off : Int := 100                                                                                     -- line 306
  { parDim := parDim
    patches := (off, (n : Int) - 1 + off)                                                                  -- line 435
    interfaces :=
      if (t.filter fun x => decide (x ≥ 0)).length = 0 then []                                             -- lines 326-329
      else ((orientationRows f orient t).map (addOffset off)).flatten                                      -- lines 333-341
    boundaries :=
      if labeled then
        (Multipatch.boundaries f t).map fun faces => (faces.map fun pf => [(pf.1 : Int) + off, (pf.2 : Int) + 1]).flatten   -- lines 343-358
      else
        let b := (List.range t.length).filter fun i => decide (t.getD i 0 < 0)                             -- line 363
        if b.length = 0 then [] else [(b.map fun i => [((i / f : ℕ) : Int) + off, ((i % f : ℕ) : Int) + 1]).flatten] }      -- lines 364-371

/-- `reshape(-1, k)` of a flat array; `none`: the size is not a multiple of `k`. (splinepy/io/gismo.py 610-665) -/
def reshapeRows (k : ℕ) : ℕ → List Int → Option (List (List Int))
  | 0, l => if l = [] then some [] else none
  | fuel + 1, l => if l = [] then some [] else if l.length < k then none else (reshapeRows k fuel (l.drop k)).map (l.take k :: ·)

/-- `interface_array[rows, cols] = values`: fancy assignment, the last value of a repeated index stays; negative indices count from the end. (splinepy/io/gismo.py 622-660) -/
def assignAll (n f : ℕ) : List (Int × Int × Int) → List Int → Option (List Int)
  | [], t => some t
  | (r, c, v) :: rest, t =>
    match Index.pyIndex n r, Index.pyIndex f c with
    | some i, some j => assignAll n f rest (t.set (i * f + j) v)
    | _, _ => none

/-- Boundary elements, gismo.py 640-659, numbered from `id`. -/
def assignBoundaries (n f : ℕ) (off : Int) : Int → List (List Int) → List Int → Option (List Int)
  | _, [], t => some t
  | id, b :: bs, t =>
    if b = [] then assignBoundaries n f off (id + 1) bs t
    else
      (reshapeRows 2 b.length b).bind fun rows =>
        (assignAll n f (rows.map fun r => (r.getD 0 0 - off, r.getD 1 0 - 1, -id)) t).bind (assignBoundaries n f off (id + 1) bs)

/-- `load`, gismo.py 589-659: the table `interface_array`, which becomes `multipatch.interfaces` in 698. `none`: an exception of numpy. -/
def loadTopology (x : Xml) : Option (List Int) :=
  let off := x.patches.1
  let n := (x.patches.2 - x.patches.1 + 1).toNat
  let f := x.parDim * 2
  let t0 : List Int := List.replicate (n * f) (-99919412)
  let t1 :=
    if x.interfaces = [] then some t0
    else
      (reshapeRows (f + 4) x.interfaces.length x.interfaces).bind fun rows =>
        (assignAll n f (rows.map fun r => (r.getD 0 0 - off, r.getD 1 0 - 1, (r.getD 2 0 - off) * f + r.getD 3 0 - 1)) t0).bind fun t =>
          assignAll n f (rows.map fun r => (r.getD 2 0 - off, r.getD 3 0 - 1, (r.getD 0 0 - off) * f + r.getD 1 0 - 1)) t
  t1.bind (assignBoundaries n f off 1 x.boundaries)

/-! ### supports of the fields -/

/-- `supports`, gismo.py 81-89: `on k i` says whether field `k` lives on patch `i`; two columns, ordered by field. -/
def supportPairs (on : ℕ → ℕ → Bool) (nPatches : ℕ) (mask : List ℕ) : List (ℕ × ℕ) :=
  (List.range mask.length).flatMap fun j => ((List.range nPatches).filter fun i => on (mask.getD j 0) i).map fun i => (i, j)

/-- `np.bincount` (splinepy/io/gismo.py 109) -/
def bincount (col : List ℕ) : List ℕ := (List.range (col.foldl max 0 + 1)).map fun v => col.count v

/-- `np.cumsum` with running sum `s`. (splinepy/io/gismo.py 111) -/
def cumsum (s : ℕ) : List ℕ → List ℕ
  | [] => []
  | x :: xs => (s + x) :: cumsum (s + x) xs

/-- `np.repeat` (splinepy/io/gismo.py 112) -/
def repeatEach : List ℕ → List ℕ → List ℕ
  | x :: xs, c :: cs => List.replicate c x ++ repeatEach xs cs
  | _, _ => []

/-- `counter` after gismo.py 107-112. -/
def counters (col : List ℕ) : List Int :=
  let bc := bincount col
  let shift := cumsum 0 (0 :: bc.dropLast)
  List.zipWith (fun (a b : ℕ) => (a : Int) - (b : Int)) (List.range col.length) (repeatEach shift bc)

/-- `supports[indices, 2] = counter`, gismo.py 113, for a column of zeros. -/
def scatter : List ℕ → List Int → List Int → List Int
  | i :: is, v :: vs, t => scatter is vs (t.set i v)
  | _, _, t => t

/-- Support matrix, gismo.py 81-113; `none`: no support at all (`IndexError` in 92) or the patch ids are not contiguous (93-104). `argsort` stands for
`np.argsort(…, kind="stable")`. -/
def supportMatrix (argsort : List ℕ → List ℕ) (on : ℕ → ℕ → Bool) (nPatches : ℕ) (mask : List ℕ) : Option (List (ℕ × ℕ × Int)) :=
  let pairs := supportPairs on nPatches mask
  if pairs = [] then none
  else
    let col := pairs.map Prod.fst
    if col.dedup.length ≠ col.foldl max 0 + 1 then none
    else
      let third := scatter (argsort col) (counters col) (List.replicate col.length 0)
      some (List.zipWith (fun (p : ℕ × ℕ) c => (p.1, p.2, c)) pairs third)

/-- Fields whose coefficients are written side by side for patch `i`, gismo.py 132-140. -/
def fieldsOnPatch (mask : List ℕ) (supports : List (ℕ × ℕ × Int)) (i : ℕ) : List ℕ :=
  ((supports.filter fun r => r.1 = i).map fun r => mask.getD r.2.1 0)

end Splinepy.Gismo
