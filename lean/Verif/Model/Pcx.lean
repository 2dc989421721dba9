/-!
# PCX graph-edge discovery

Model of `compute_graph_edges_pcx` (`common/MPI.cpp` L103-165) as a transition system over all
ranks.  A rank starts the non-blocking reduce-scatter (L112-124), issues its sends one by one
(L128-137), waits for the reduce-scatter, which needs every rank to have started it (L142),
receives that many messages from any source (L146-155) and waits for its sends (L158).
A standard-mode send may complete before it is matched (`eager`) or only when it is matched.
MPI matches a wildcard receive with any message addressed to the rank on the same
communicator and tag; all calls use the one tag `consensus_pcx`.
-/
namespace Verif.Pcx

/-- Program position: before the call, sending, waiting for the count, receiving. -/
inductive PC where
  | start | send | wait | recv
deriving DecidableEq

/-- `rounds` consecutive calls on `P` ranks; `edges n r` is the argument of rank `r` in call `n`. -/
structure Job where
  P : Nat
  rounds : Nat
  edges : Nat → Nat → List Nat
  eager : Bool

structure State where
  rd : Nat → Nat
  pc : Nat → PC
  /-- destinations not yet sent to -/
  toSend : Nat → List Nat
  /-- destinations of issued, not yet received messages of each rank -/
  pending : Nat → List Nat
  /-- `in_edges` -/
  need : Nat → Nat
  /-- `other_ranks` of rank `r` in call `n` -/
  got : Nat → Nat → List Nat

def upd {α : Type} (f : Nat → α) (a : Nat) (v : α) : Nat → α := fun x => if x = a then v else f x

def upd2 {α : Type} (f : Nat → Nat → α) (a b : Nat) (v : α) : Nat → Nat → α :=
  fun x y => if x = a ∧ y = b then v else f x y

/-- `edge_count_send[r]` of rank `q` (L112-115), summed over all ranks (L121). -/
def inEdges (P : Nat) (edges : Nat → List Nat) (r : Nat) : Nat :=
  ((List.range P).map fun q => if r ∈ edges q then 1 else 0).sum

def Job.init (j : Job) : State where
  rd := fun _ => 0
  pc := fun _ => .start
  toSend := fun r => j.edges 0 r
  pending := fun _ => []
  need := fun _ => 0
  got := fun _ _ => []

/-- Rank `q` has started the reduce-scatter of call `n`. -/
def started (s : State) (n q : Nat) : Prop := n < s.rd q ∨ (s.rd q = n ∧ s.pc q ≠ .start)

inductive Step (j : Job) : State → State → Prop
  /-- L112-124 -/
  | begin (s : State) (r : Nat) : r < j.P → s.rd r < j.rounds → s.pc r = .start →
      Step j s { s with pc := upd s.pc r .send }
  /-- L132-136 -/
  | issue (s : State) (r d : Nat) (rest : List Nat) : r < j.P → s.pc r = .send → s.toSend r = d :: rest →
      Step j s { s with toSend := upd s.toSend r rest, pending := upd s.pending r (s.pending r ++ [d]) }
  | issued (s : State) (r : Nat) : r < j.P → s.pc r = .send → s.toSend r = [] →
      Step j s { s with pc := upd s.pc r .wait }
  /-- L142 -/
  | count (s : State) (r : Nat) : r < j.P → s.pc r = .wait → (∀ q, q < j.P → started s (s.rd r) q) →
      Step j s { s with pc := upd s.pc r .recv, need := upd s.need r (inEdges j.P (j.edges (s.rd r)) r) }
  /-- L146-155: any message addressed to `r` may be taken -/
  | recv (s : State) (r q : Nat) (l₁ l₂ : List Nat) : r < j.P → q < j.P → s.pc r = .recv →
      (s.got r (s.rd r)).length < s.need r → s.pending q = l₁ ++ r :: l₂ →
      Step j s { s with pending := upd s.pending q (l₁ ++ l₂),
                        got := upd2 s.got r (s.rd r) (s.got r (s.rd r) ++ [q]) }
  /-- L158-165 -/
  | finish (s : State) (r : Nat) : r < j.P → s.pc r = .recv → (s.got r (s.rd r)).length = s.need r →
      (j.eager = true ∨ s.pending r = []) →
      Step j s { s with rd := upd s.rd r (s.rd r + 1), pc := upd s.pc r .start,
                        toSend := upd s.toSend r (j.edges (s.rd r + 1) r) }

inductive Reach (j : Job) : State → Prop
  | init : Reach j j.init
  | step {s s' : State} : Reach j s → Step j s s' → Reach j s'

end Verif.Pcx
