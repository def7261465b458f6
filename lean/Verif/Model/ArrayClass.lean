/-!
Model of the class `Array` (`include/splinepy/utils/arrays.hpp` 40-410): shape, strides, element access, and who frees the memory.

Simplified: index types are natural numbers without overflow; `new[]` always succeeds. Undefined behaviour (freeing twice, `delete[]` of memory that `new[]` did not give, access of freed
memory or outside of a block) is `none`. Pointers point to the start of a block.
-/
namespace Splinepy.ArrayClass

/-- Lines 239-248: `strides_` starts as the extents without the first; from the last entry on, each becomes the product so far. Returns the entries and the final product.
(include/splinepy/utils/arrays.hpp) -/
def stridesLoop : List Nat → List Nat × Nat
  | [] => ([], 1)
  | s :: rest =>
    let r := stridesLoop rest
    ((r.2 * s) :: r.1, r.2 * s)

/-- `size_` after `SetShape`, include/splinepy/utils/arrays.hpp 225-255. -/
def sizeOf : List Nat → Nat
  | [] => 0
  | [n] => n
  | n :: rest => (stridesLoop rest).2 * n

/-- `strides_` after `SetShape`, include/splinepy/utils/arrays.hpp 236-248. -/
def stridesOf : List Nat → List Nat
  | [] => []
  | _ :: rest => (stridesLoop rest).1

/-- `ComputeRemainingOffset`, include/splinepy/utils/arrays.hpp 80-99: the last index is added, the others are multiplied with their stride. -/
def remaining (strides : List Nat) : Nat → Nat → List Nat → Nat
  | index, _, [] => index
  | index, _, [i] => index + i
  | index, counter, i :: is => remaining strides (index + strides.getD counter 0 * i) (counter + 1) is

/-- `operator()`, include/splinepy/utils/arrays.hpp 371-387, 395-412. -/
def offset (strides : List Nat) : List Nat → Nat
  | [] => 0
  | [i] => i
  | i :: is => remaining strides (i * strides.getD 0 0) 1 is

/-- Memory: `made` if it comes from `new[]` of an array, else it belongs to somebody else (a numpy array, a vector). -/
structure Block (α : Type) where
  vals : List α
  made : Bool
  freed : Bool
deriving DecidableEq

/-- The members of an array, include/splinepy/utils/arrays.hpp 61-76. -/
structure Arr where
  own : Bool
  data : Option Nat
  size : Nat
  strides : List Nat
  shape : List Nat
deriving DecidableEq

/-- Memory and arrays; `none`: the array is destroyed. -/
structure State (α : Type) where
  heap : List (Block α) := []
  arrs : List (Option Arr) := []
deriving DecidableEq

variable {α : Type}

/-- `delete[]`, include/splinepy/utils/arrays.hpp 141. -/
def free (s : State α) (b : Nat) : Option (State α) :=
  match s.heap[b]? with
  | none => none
  | some k => if k.made = true ∧ k.freed = false then some { s with heap := s.heap.set b { k with freed := true } } else none

/-- `DestroyData`: the memory is freed if the array owns it. The members are written by the caller. (include/splinepy/utils/arrays.hpp 139-146) -/
def destroyData (s : State α) (a : Arr) : Option (State α) :=
  match a.own, a.data with
  | true, some b => free s b
  | _, _ => some s

/-- An array without memory, include/splinepy/utils/arrays.hpp 61-76. -/
def empty : Arr := ⟨false, none, 0, [], []⟩

/-- The values of a new block are indeterminate: parameter `v`. (include/splinepy/utils/arrays.hpp 201-214) -/
def newBlock (s : State α) (v : α) (n : Nat) : State α := { s with heap := s.heap ++ [⟨List.replicate n v, true, false⟩] }

/-- Reading the first `n` values of a block. (std::copy_n; include/splinepy/utils/arrays.hpp 285, 312) -/
def load (s : State α) (b : Option Nat) (n : Nat) : Option (List α) :=
  if n = 0 then some [] else
  match b.bind (fun b => s.heap[b]?) with
  | none => none
  | some k => if k.freed = false ∧ n ≤ k.vals.length then some (k.vals.take n) else none

/-- Writing the first values of a block. (std::copy_n; include/splinepy/utils/arrays.hpp 285, 312) -/
def store (s : State α) (b : Option Nat) (vals : List α) : Option (State α) :=
  if vals = [] then some s else
  match b with
  | none => none
  | some b => match s.heap[b]? with
    | none => none
    | some k => if k.freed = false ∧ vals.length ≤ k.vals.length then
        some { s with heap := s.heap.set b { k with vals := vals ++ k.vals.drop vals.length } } else none

/-- Calls. Arrays are numbered in the order of their construction. -/
inductive Op (α : Type)
  /-- memory of somebody else -/
  | foreign (vals : List α)
  /-- `Array()`: 258 -/
  | default
  /-- `Array(shape...)`: 263-267 -/
  | alloc (shape : List Nat) (v : α)
  /-- `Array(pointer, shape...)`: 273-277 -/
  | wrap (b : Nat) (shape : List Nat)
  /-- `Array(const Array&)`: 281-290 -/
  | copy (i : Nat) (v : α)
  /-- `Array(Array&&)`: 294-301 -/
  | move (i : Nat)
  /-- `operator=(const Array&)`: 306-319 -/
  | assign (i j : Nat)
  /-- `operator=(Array&&)`: 324-334 -/
  | moveAssign (i j : Nat)
  /-- `~Array`: 337 -/
  | destroy (i : Nat)
  /-- `SetData(pointer, shape...)`: 159-164 -/
  | setData (i b : Nat) (shape : List Nat)
  /-- `Reallocate(shape...)`, `SetOrReallocateData(nullptr, shape...)`: 200-222, 170-178 -/
  | reallocate (i : Nat) (shape : List Nat) (v : α)
  /-- `TransferOwnership()`: 193-197 -/
  | transfer (i : Nat)
  /-- `SetShape(shape...)`: 224-255 -/
  | setShape (i : Nat) (shape : List Nat)
  /-- `array(i, j, …) = value`: 371-387 -/
  | write (i : Nat) (ids : List Nat) (v : α)

/-- The result of a call without undefined behaviour: the state, and whether an exception was thrown. (include/splinepy/utils/arrays.hpp 308-311) -/
structure Res (α : Type) where
  state : State α
  raised : Bool
deriving DecidableEq

/-- Replace the members of array `i`. (include/splinepy/utils/arrays.hpp 61-76) -/
def setArr (s : State α) (i : Nat) (a : Arr) : State α := { s with arrs := s.arrs.set i (some a) }

/-- A new array. (include/splinepy/utils/arrays.hpp 258-301) -/
def addArr (s : State α) (a : Arr) : State α := { s with arrs := s.arrs ++ [some a] }

/-- The array `i`, if it is not destroyed. -/
def arr (s : State α) (i : Nat) : Option Arr := (s.arrs[i]?).bind id

/-- Effect of a call, include/splinepy/utils/arrays.hpp 139-412. `none`: undefined behaviour, or no such array. -/
def step (s : State α) : Op α → Option (Res α)
  | .foreign vals => some ⟨{ s with heap := s.heap ++ [⟨vals, false, false⟩] }, false⟩
  | .default => some ⟨addArr s empty, false⟩
  | .alloc shape v => some ⟨addArr (newBlock s v (sizeOf shape)) ⟨true, some s.heap.length, sizeOf shape, stridesOf shape, shape⟩, false⟩
  | .wrap b shape => if b < s.heap.length then some ⟨addArr s ⟨false, some b, sizeOf shape, stridesOf shape, shape⟩, false⟩ else none
  | .copy i v => (arr s i).bind (fun o =>
      -- `Reallocate(other.size_)`, `copy_n`, shape and strides
      (load (newBlock s v o.size) o.data o.size).bind (fun vals =>
        (store (newBlock s v o.size) (some s.heap.length) vals).map (fun s1 => ⟨addArr s1 ⟨true, some s.heap.length, o.size, o.strides, o.shape⟩, false⟩)))
  | .move i => (arr s i).map (fun o =>
      -- `data_` of the other array is kept, only `own_data_` is reset (300)
      ⟨addArr (setArr s i { o with own := false }) o, false⟩)
  | .assign i j => (arr s i).bind (fun a => (arr s j).bind (fun o =>
      if a.size ≠ o.size then some ⟨s, true⟩
      else (load s o.data o.size).bind (fun vals => (store s a.data vals).map (fun s1 => ⟨setArr s1 i { a with shape := o.shape, strides := o.strides }, false⟩))))
  | .moveAssign i j => (arr s i).bind (fun a => (destroyData s a).bind (fun s1 =>
      -- `DestroyData` resets `data_` and `own_data_` (144-145), also if both are the same array
      let s2 := setArr s1 i { a with own := false, data := none }
      (arr s2 j).map (fun o =>
        let s3 := setArr s2 i o
        ⟨match arr s3 j with
          | some o' => setArr s3 j { o' with own := false }
          | none => s3, false⟩)))
  | .destroy i => (arr s i).bind (fun a => (destroyData s a).map (fun s1 => ⟨{ s1 with arrs := s1.arrs.set i none }, false⟩))
  | .setData i b shape => if b < s.heap.length then
      (arr s i).bind (fun a => (destroyData s a).map (fun s1 => ⟨setArr s1 i ⟨false, some b, sizeOf shape, stridesOf shape, shape⟩, false⟩)) else none
  | .reallocate i shape v => (arr s i).bind (fun a => (destroyData s a).map (fun s1 =>
      ⟨setArr (newBlock s1 v (sizeOf shape)) i ⟨true, some s.heap.length, sizeOf shape, stridesOf shape, shape⟩, false⟩))
  | .transfer i => (arr s i).map (fun a => ⟨setArr s i { a with own := false }, false⟩)
  | .setShape i shape => (arr s i).map (fun a => ⟨setArr s i { a with size := sizeOf shape, strides := stridesOf shape, shape := shape }, false⟩)
  | .write i ids v => (arr s i).bind (fun a => a.data.bind (fun b => (s.heap[b]?).bind (fun k =>
      if k.freed = false ∧ offset a.strides ids < k.vals.length then
        some ⟨{ s with heap := s.heap.set b { k with vals := k.vals.set (offset a.strides ids) v } }, false⟩ else none)))

/-- A history of calls. -/
def run (s : State α) (ops : List (Op α)) : Option (State α) := ops.foldlM (fun s op => (step s op).map Res.state) s

end Splinepy.ArrayClass
