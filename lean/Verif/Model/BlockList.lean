import Verif.Spec.BlockList

/-!
# Model of `crowddynamics/core/block_list.py`

Coordinates are elements of an ordered field with floor (`ℚ` makes the model
executable, `ℝ` is used for placement). Only `default_list=list` is modelled.
-/

namespace CrowdDynamics

variable {α V : Type}

/-- The `defaultdict(list)` of blocks as an association list.
Source: crowddynamics/core/block_list.py:86. -/
abbrev Blocks (V : Type) : Type := List (List ℤ × List V)

/-- Source: crowddynamics/core/block_list.py:84-86: instance attributes
`_cell_size` and `_blocks` (`_list` is `list`). -/
structure BlockList (α V : Type) where
  /-- `_cell_size` -/
  cellSize : α
  /-- `_blocks` -/
  blocks : Blocks V

/-- Source: crowddynamics/core/block_list.py:70-86 (`__init__`): the assertion
`cell_size > 0` raises (`none`). -/
def BlockList.init [Zero α] [LT α] [DecidableLT α] (cellSize : α) : Option (BlockList α V) :=
  if 0 < cellSize then some ⟨cellSize, []⟩ else none

/-- Source: crowddynamics/core/block_list.py:93-107 (`_transform`):
`tuple(elem // cell_size for elem in value)`. The resulting whole floats are
modelled as integers; values that are not numbers (`KeyError`) are excluded by
the type. -/
def blockTransform [Field α] [LinearOrder α] [FloorRing α] (value : List α) (cellSize : α) :
    List ℤ :=
  value.map fun elem => ⌊elem / cellSize⌋

/-- `range(-radius, radius + 1)`.
Source: crowddynamics/core/block_list.py:120. -/
def offsetRange (radius : ℤ) : List ℤ :=
  (List.range (2 * radius + 1).toNat).map fun i : ℕ => -radius + (i : ℤ)

/-- `itertools.product(*ranges)` for `d` equal ranges.
Source: crowddynamics/core/block_list.py:120-121. -/
def offsetProduct (radius : ℤ) : ℕ → List (List ℤ)
  | 0 => [[]]
  | d + 1 => (offsetRange radius).flatMap fun o => (offsetProduct radius d).map fun t => o :: t

/-- Source: crowddynamics/core/block_list.py:109-122 (`_nearest_blocks`):
`tuple(map(sum, zip(index, i)))`. -/
def nearestBlocks (index : List ℤ) (radius : ℤ) : List (List ℤ) :=
  (offsetProduct radius index.length).map fun i => List.zipWith (· + ·) index i

/-- `self._blocks[key]` on a `defaultdict`: returns the block and creates it if it
is missing. Source: crowddynamics/core/block_list.py:132, 145. -/
def Blocks.access (b : Blocks V) (key : List ℤ) : List V × Blocks V :=
  match b.lookup key with
  | some l => (l, b)
  | none => ([], b ++ [(key, [])])

/-- `self._blocks[index].append(value)`.
Source: crowddynamics/core/block_list.py:127. -/
def Blocks.append (b : Blocks V) (key : List ℤ) (value : V) : Blocks V :=
  (b.access key).2.map fun e => if e.1 = key then (e.1, e.2 ++ [value]) else e

variable [Field α] [LinearOrder α] [FloorRing α]

/-- Source: crowddynamics/core/block_list.py:124-127 (`__setitem__`). -/
def BlockList.setItem (s : BlockList α V) (key : List α) (value : V) : BlockList α V :=
  let index := blockTransform key s.cellSize
  { s with blocks := s.blocks.append index value }

/-- Source: crowddynamics/core/block_list.py:129-132 (`__getitem__`). The returned
list is a copy in the model; mutating it through the alias is not modelled. -/
def BlockList.getItem (s : BlockList α V) (item : List α) : List V × BlockList α V :=
  let index := blockTransform item s.cellSize
  let r := s.blocks.access index
  (r.1, { s with blocks := r.2 })

/-- `sum((self._blocks[key] for key in keys), [])`: concatenation in key order,
threading the dictionary. Source: crowddynamics/core/block_list.py:145-146. -/
def Blocks.concat (b : Blocks V) : List (List ℤ) → List V × Blocks V
  | [] => ([], b)
  | key :: keys =>
    let r := b.access key
    let rest := Blocks.concat r.2 keys
    (r.1 ++ rest.1, rest.2)

/-- Source: crowddynamics/core/block_list.py:134-146 (`nearest`). -/
def BlockList.nearest (s : BlockList α V) (item : List α) (radius : ℤ) :
    List V × BlockList α V :=
  let index := blockTransform item s.cellSize
  let r := s.blocks.concat (nearestBlocks index radius)
  (r.1, { s with blocks := r.2 })

/-- One call of the public interface (`set` returns nothing).
Source: crowddynamics/core/block_list.py:124-146. -/
def BlockList.step (s : BlockList α V) : BlockOp α V → List V × BlockList α V
  | .set key value => ([], s.setItem key value)
  | .get item => s.getItem item
  | .nearest item radius => s.nearest item radius

/-- A history of calls; only the final state is kept.
Source: crowddynamics/core/block_list.py:124-146. -/
def BlockList.run (s : BlockList α V) : List (BlockOp α V) → BlockList α V
  | [] => s
  | op :: ops => (s.step op).2.run ops

end CrowdDynamics
