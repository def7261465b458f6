import Verif.Model.BoundaryLabels

/-!
Model of the concurrent writes to `faces_are_g1` in `AddBoundariesFromContinuity`, `src/py/py_multipatch.cpp` 954-994.

`faces_are_g1` is a `std::vector<bool>` (line 954): its elements are bits of shared machine words, and assigning an element loads the word, changes
one bit and stores the word. The threads started in lines 992-994 assign elements concurrently (lines 985-986). A small vector lies in one word;
the model has one word (a list of bits) and, per thread, the assignments still to be made and the word that was loaded for the current assignment.
-/
namespace Splinepy.FlagRace

/-- one thread: pending assignments (position, value) and the loaded word, if between load and store (src/py/py_multipatch.cpp 954-994) -/
structure Thread where
  pending : List (ℕ × Bool)
  loaded : Option (List Bool)

/-- shared word and threads (src/py/py_multipatch.cpp 954-994) -/
structure Config where
  word : List Bool
  threads : List Thread

/-- one step of thread `t`: load the word, or store it with one bit changed (src/py/py_multipatch.cpp 985-986) -/
def step (c : Config) (t : ℕ) : Config :=
  match c.threads[t]? with
  | none => c
  | some th =>
    match th.pending, th.loaded with
    | [], _ => c
    | _ :: _, none => { c with threads := c.threads.set t { th with loaded := some c.word } }
    | (p, v) :: rest, some w => { word := w.set p v, threads := c.threads.set t { pending := rest, loaded := none } }

/-- a schedule is the list of threads in the order in which they make their steps (src/py/py_multipatch.cpp 992-994) -/
def run (c : Config) (schedule : List ℕ) : Config := schedule.foldl step c

/-- assignments of lines 985-986 made for the boundary patches `lo ≤ i < hi` of one thread (src/py/py_multipatch.cpp) -/
def assignments (nF nB : ℕ) (bi : List Int) (g1 : ℕ → ℕ → ℕ → ℕ → Bool) (lo hi : ℕ) : List (ℕ × Bool) :=
  ((List.range nB).filter (fun i => lo ≤ i ∧ i < hi)).flatMap (fun i => (List.range nF).flatMap (fun j =>
    let connected := bi.getD (i * nF + j) (-1)
    if connected.tdiv nF < i then []                                             -- lines 973-975
    else
      let v := g1 i j (connected.tdiv nF).toNat (connected.tmod nF).toNat
      [(i * nF + j, v), (connected.toNat, v)]))

end Splinepy.FlagRace
