import Verif.Model.Errors
import Mathlib.Data.List.Basic

/-!
# Model of the logic tree (`crowddynamics/simulation/base.py`)

Nodes are numbered. The attributes `parent` and `children` that the library `anytree` keeps for
every node are represented by the forest they form: the list of all trees, each with its ordered
children. Operations return the new forest also if they raise an exception.
-/

namespace CrowdDynamics

/-- A node with its children. Source: crowddynamics/simulation/base.py:26-28 (`LogicNodeBase` is
an anytree `NodeMixin`). -/
inductive LTree where
  /-- the node `id` -/
  | node (id : ℕ) (children : List LTree)

/-- The number of the root. Source: crowddynamics/simulation/base.py:26-28. -/
def LTree.id : LTree → ℕ
  | .node i _ => i

mutual

/-- `PreOrderIter`. Source: anytree, used at crowddynamics/simulation/base.py:81. -/
def LTree.preorder : LTree → List ℕ
  | .node i cs => i :: preorderAll cs

/-- `PreOrderIter` over several trees. Source: anytree, used at
crowddynamics/simulation/base.py:81. -/
def preorderAll : List LTree → List ℕ
  | [] => []
  | t :: ts => t.preorder ++ preorderAll ts

end

mutual

/-- `PostOrderIter`. Source: anytree, used at crowddynamics/simulation/multiagent.py:53. -/
def LTree.postorder : LTree → List ℕ
  | .node i cs => postorderAll cs ++ [i]

/-- `PostOrderIter` over several trees. Source: anytree, used at
crowddynamics/simulation/multiagent.py:53. -/
def postorderAll : List LTree → List ℕ
  | [] => []
  | t :: ts => t.postorder ++ postorderAll ts

end

mutual

/-- The node with the number `s` together with everything below it.
Source: anytree; the object `self` at crowddynamics/simulation/base.py:35-50. -/
def LTree.find (s : ℕ) : LTree → Option LTree
  | .node i cs => if i = s then some (.node i cs) else findAll s cs

/-- As `find`, in several trees. Source: anytree; crowddynamics/simulation/base.py:35-50. -/
def findAll (s : ℕ) : List LTree → Option LTree
  | [] => none
  | t :: ts => match t.find s with
    | some r => some r
    | none => findAll s ts

end

mutual

/-- The attribute `parent` of the node `s`, if it is below the root of the tree.
Source: anytree, used at crowddynamics/simulation/base.py:37. -/
def LTree.parentOf (s : ℕ) : LTree → Option ℕ
  | .node i cs => if s ∈ cs.map LTree.id then some i else parentOfAll s cs

/-- The attribute `parent` of the node `s`; `none` for roots.
Source: anytree, used at crowddynamics/simulation/base.py:37. -/
def parentOfAll (s : ℕ) : List LTree → Option ℕ
  | [] => none
  | t :: ts => match t.parentOf s with
    | some r => some r
    | none => parentOfAll s ts

end

mutual

/-- Removing the node `s` from the children of its parent. Source: anytree (`__detach`), used at
crowddynamics/simulation/base.py:38-39, 44-45, 49. -/
def LTree.detach (s : ℕ) : LTree → LTree
  | .node i cs => .node i (detachAll s cs)

/-- As `detach`, in several trees. Source: anytree (`__detach`), used at
crowddynamics/simulation/base.py:38-39, 44-45, 49. -/
def detachAll (s : ℕ) : List LTree → List LTree
  | [] => []
  | t :: ts => if t.id = s then detachAll s ts else t.detach s :: detachAll s ts

end

mutual

/-- Appending the tree `sub` to the children of the node `q`. Source: anytree (`__attach`), used
at crowddynamics/simulation/base.py:38-39, 44-45, 49. -/
def LTree.attach (q : ℕ) (sub : LTree) : LTree → LTree
  | .node i cs => .node i (attachAll q sub cs ++ if i = q then [sub] else [])

/-- As `attach`, in several trees. Source: anytree (`__attach`), used at
crowddynamics/simulation/base.py:38-39, 44-45, 49. -/
def attachAll (q : ℕ) (sub : LTree) : List LTree → List LTree
  | [] => []
  | t :: ts => LTree.attach q sub t :: attachAll q sub ts

end

/-- The setter of `parent` for the node `self`: nothing happens if the parent stays the same; a
`LoopError` is raised if the new parent is the node itself or below it; otherwise the node is
detached from its old parent and appended to the children of the new parent (or becomes a root).
Source: anytree, used at crowddynamics/simulation/base.py:38-39, 44-45, 49. A node that does
not exist (impossible in Python) gives `PyErr.attribute`. -/
def setParent (self : ℕ) (parent : Option ℕ) (forest : List LTree) :
    Except PyErr Unit × List LTree :=
  match findAll self forest with
  | none => (.error .attribute, forest)
  | some sub =>
    if parentOfAll self forest = parent then (.ok (), forest)
    else
      match parent with
      | none => (.ok (), detachAll self forest ++ [sub])
      | some q =>
        if q ∈ sub.preorder then (.error .loop, forest)
        else if q ∉ preorderAll forest then (.error .attribute, forest)
        else (.ok (), attachAll q sub (detachAll self forest))

/-- Source: crowddynamics/simulation/base.py:35-39 (`LogicNodeBase.inject_before`). -/
def injectBefore (self node : ℕ) (forest : List LTree) : Except PyErr Unit × List LTree :=
  let parent := parentOfAll self forest
  match setParent self (some node) forest with
  | (.error e, forest) => (.error e, forest)
  | (.ok _, forest) => setParent node parent forest

/-- The loop of `inject_after`. Source: crowddynamics/simulation/base.py:43-44. -/
def adoptAll (node : ℕ) : List ℕ → List LTree → Except PyErr Unit × List LTree
  | [], forest => (.ok (), forest)
  | child :: rest, forest =>
    match setParent child (some node) forest with
    | (.error e, forest) => (.error e, forest)
    | (.ok _, forest) => adoptAll node rest forest

/-- `self.children`. Source: anytree, used at crowddynamics/simulation/base.py:43. -/
def childrenOf (self : ℕ) (forest : List LTree) : List ℕ :=
  match findAll self forest with
  | some (.node _ cs) => cs.map LTree.id
  | none => []

/-- Source: crowddynamics/simulation/base.py:41-45 (`LogicNodeBase.inject_after`). `children` is a
tuple made before the loop. -/
def injectAfter (self node : ℕ) (forest : List LTree) : Except PyErr Unit × List LTree :=
  match adoptAll node (childrenOf self forest) forest with
  | (.error e, forest) => (.error e, forest)
  | (.ok _, forest) => setParent node (some self) forest

/-- Source: crowddynamics/simulation/base.py:47-50 (`LogicNodeBase.add_children`). -/
def addChildren (self node : ℕ) (forest : List LTree) : Except PyErr Unit × List LTree :=
  setParent node (some self) forest

/-- Source: crowddynamics/simulation/base.py:52-73 (`LogicNodeBase.__lshift__`), for a tuple of
nodes (a single node is a tuple of one). -/
def lshift (self : ℕ) : List ℕ → List LTree → Except PyErr Unit × List LTree
  | [], forest => (.ok (), forest)
  | other :: rest, forest =>
    match addChildren self other forest with
    | (.error e, forest) => (.error e, forest)
    | (.ok _, forest) => lshift self rest forest

/-- `self.root`: the tree in which the node is. Source: anytree, used at
crowddynamics/simulation/base.py:81 and crowddynamics/simulation/multiagent.py:53. -/
def rootOf (self : ℕ) (forest : List LTree) : Option LTree :=
  forest.find? fun t => self ∈ t.preorder

/-- Source: crowddynamics/simulation/base.py:78-84 (`LogicNodeBase.__getitem__`). `name` gives the
names of the nodes. -/
def getItem (name : ℕ → String) (self : ℕ) (item : String) (forest : List LTree) :
    Except PyErr ℕ :=
  match rootOf self forest with
  | none => .error .attribute
  | some root =>
    match root.preorder.find? fun k => name k = item with
    | some k => .ok k
    | none => .error .key

end CrowdDynamics
