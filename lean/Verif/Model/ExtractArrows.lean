import Verif.Model.Arrows

/-!
Model of `extract.arrow_data`, splinepy/helpme/extract.py 546-602. The places and values come from `_sample_arrow_data` (`Model/Arrows`, `Model/FieldData`). Parameters, as they are `gustaf`'s: `as_scalar` of the
data of vertices, and `from_data`, which creates the edges.
-/
namespace Splinepy.ExtractArrows

variable {K N E : Type}

/-- What is used as the key of vertex data: a name, `None`, or an object with vertices, extract.py 579, 597. -/
inductive Key where
  | name (n : String)
  | absent
  | vertices
deriving DecidableEq

/-- An object of gustaf with vertices and data for them, extract.py 577. -/
structure Points (K : Type) where
  vertices : List (List K)
  data : String → Option (List (List K))

/-- What the call gives: an exception, the object with vertices, or edges (extract.py 561-602). -/
inductive Result (K E : Type) where
  | raised
  | points (p : Points K)
  | edges (e : E)

/-- `arrow_data(spline, adata_name)`, extract.py 546-602. `known`: the names in `spline_data`. `sampled`: the vertices of the sampled spline and what `as_arrow` gives there. `atPlaces`: what `_sample_arrow_data`
returns for places (`Arrows.sampleArrows`): `none` if it raises, `some none` if there are none; the data are then put on the sampled spline under their name (visualize.py 351), else on the new vertices (388-398).
In line 597 the key is the result of `_sample_arrow_data`, not the name. -/
def arrowData (asScalar : (String → Option (List (List K))) → Key → Option N) (fromData : Points K → List (List K) → Option K → N → Option E) (known : List String) (dim : ℕ) (scale : Option K)
    (sampled : List (List K) × Option (List (List K))) (atPlaces : Option (Option (List (List K) × List (List K)))) (name : String) : Result K E :=
  if name ∉ known then .raised
  else
    let found : Option (Points K × Key) :=
      match atPlaces with
      | none => none
      | some none => sampled.2.map fun vs => (⟨sampled.1, fun n => if n = name then some vs else none⟩, .absent)
      | some (some (ps, vs)) => some (⟨ps, fun n => if n = name then some vs else none⟩, .vertices)
    match found with
    | none => .raised
    | some (mesh, key) =>
      match mesh.data name with
      | none => .raised
      | some values =>
        if (values.headD []).length ≠ dim then .points mesh
        else match (asScalar mesh.data key).bind fun norm => fromData mesh values scale norm with
          | some e => .edges e
          | none => .raised

end Splinepy.ExtractArrows
