import Verif.Model.World
import Verif.Spec.Json
/-! # What a communication graph is -/
namespace Verif.Spec.CommGraph
open Verif.World Verif.Spec.Json

/-- Number of ghosts of rank `q` that are in the range of indices owned by rank `r`: what a forward scatter sends
from `r` to `q`. -/
def held (w : World) (q r : Nat) : Nat :=
  ((w.ghosts q).filter fun g => decide (w.r0 r ≤ g ∧ g < w.r0 r + w.size r)).length

/-- JSON value of a node. -/
def nodeJson (id : Nat) (size ghosts : Nat) : Json := .obj [("num_ghosts", .num ghosts), ("weight", .num size), ("id", .num id)]

/-- JSON value of an edge to a rank. -/
def edgeJson (target weight mark : Nat) : Json := .obj [("local", .num mark), ("weight", .num weight), ("id", .num target)]

/-- NetworkX' format of graphs by adjacency (`networkx.adjacency_graph`): the list at position `n` of `adjacency` has the
edges from the node at position `n` of `nodes`. -/
def graphJson (nodes : List (Nat × Nat)) (rows : List (List (Nat × Nat × Nat))) : Json :=
  .obj [("directed", .bool true), ("multigraph", .bool false), ("graph", .arr []),
    ("nodes", .arr (nodes.zipIdx.map fun p => nodeJson p.2 p.1.1 p.1.2)),
    ("adjacency", .arr (rows.map fun row => .arr (row.map fun e => edgeJson e.1 e.2.1 e.2.2)))]

end Verif.Spec.CommGraph
