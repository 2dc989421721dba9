/-!
# NBX consensus as a transition system

Model of `nbx_consensus_rounds<K>` (`common/MPI.cpp` L177-287), called once per round by
every rank of a communicator for a sequence of rounds.  A *step* is one observable action
of one rank or one match made by the MPI library; any interleaving is allowed, in
particular a rank may be delayed for ever long between any two actions.  MPI rules used:
a synchronous send (`MPI_Issend`) completes only when it has been matched with a posted
receive; a posted wildcard receive matches any one pending message with its tag; a
non-blocking barrier completes on a rank only after every rank has entered it;
`MPI_Cancel` either cancels an unmatched receive or leaves the match.

Simplifications: message order between one pair of ranks is not used (more executions than
MPI allows); the polling calls that return "not yet" are not steps; within the loop the
listeners may be tested in any order.
-/
namespace Verif.Nbx

/-- Program position of a rank inside one call. -/
inductive PC
  | post (k : Nat)    -- posting listener k, L181-191
  | send              -- issuing synchronous sends, L195-208
  | loop              -- loop before the barrier is active, L217-262
  | bar               -- loop with the barrier active
  | cancel (k : Nat)  -- cancelling listener k, L268-284
deriving DecidableEq, Repr

/-- A persistent listener (`recv_request[i]`). -/
inductive Lis
  | none | posted | matched (source : Nat)
deriving DecidableEq, Repr

/-- What the ranks want to do: number of ranks, of edge sets per call, of calls; destination
lists and tags of every call. -/
structure Job where
  P : Nat
  K : Nat
  rounds : Nat
  /-- `edges n r i`: destinations of rank `r` in set `i` of call `n`. -/
  edges : Nat → Nat → Nat → List Nat
  /-- `tag n i`: tag used for set `i` in call `n`. -/
  tag : Nat → Nat → Nat

/-- Global state.  Rank `r` is in call `rd r` (`rd r = rounds`: finished all). -/
structure State where
  rd : Nat → Nat
  pc : Nat → PC
  /-- sends of the current call not yet issued: (set, destination) -/
  toSend : Nat → List (Nat × Nat)
  /-- issued sends not yet matched -/
  pending : Nat → List (Nat × Nat)
  /-- `lis r i`: state of listener `i` on rank `r` -/
  lis : Nat → Nat → Lis
  /-- `got r n i`: contents of `src_ranks[i]` of call `n` on rank `r` -/
  got : Nat → Nat → Nat → List Nat

/-- All sends of call `n` on rank `r` in program order (L199-208). -/
def Job.sends (j : Job) (n r : Nat) : List (Nat × Nat) :=
  (List.range j.K).flatMap fun i => (j.edges n r i).map fun d => (i, d)

/-- Function update. -/
def upd {α : Type} (f : Nat → α) (r : Nat) (v : α) : Nat → α := fun x => if x = r then v else f x

/-- Update of a two- and three-argument function. -/
def upd2 {α : Type} (f : Nat → Nat → α) (r i : Nat) (v : α) : Nat → Nat → α :=
  fun x y => if x = r ∧ y = i then v else f x y
def upd3 {α : Type} (f : Nat → Nat → Nat → α) (r n i : Nat) (v : α) : Nat → Nat → Nat → α :=
  fun x y z => if x = r ∧ y = n ∧ z = i then v else f x y z

/-- Start: every rank at the beginning of call 0. -/
def Job.init (j : Job) : State where
  rd := fun _ => 0
  pc := fun _ => .post 0
  toSend := fun r => if r < j.P ∧ 0 < j.rounds then j.sends 0 r else []
  pending := fun _ => []
  lis := fun _ _ => .none
  got := fun _ _ _ => []

/-- Rank `r` has entered the barrier of call `n` (or is past it). -/
def entered (s : State) (n r : Nat) : Prop :=
  n < s.rd r ∨ (s.rd r = n ∧ (s.pc r = .bar ∨ ∃ k, s.pc r = .cancel k))

/-- One step. -/
inductive Step (j : Job) : State → State → Prop
  /-- `MPI_Irecv` of listener `k`, L181-191 -/
  | post (s : State) (r k : Nat) : r < j.P → s.rd r < j.rounds → s.pc r = .post k → k < j.K →
      Step j s { s with lis := upd2 s.lis r k .posted, pc := upd s.pc r (.post (k + 1)) }
  | posted (s : State) (r : Nat) : r < j.P → s.rd r < j.rounds → s.pc r = .post j.K →
      Step j s { s with pc := upd s.pc r .send }
  /-- `MPI_Issend`, L199-208 -/
  | issue (s : State) (r : Nat) (e : Nat × Nat) (rest : List (Nat × Nat)) :
      r < j.P → s.pc r = .send → s.toSend r = e :: rest →
      Step j s { s with toSend := upd s.toSend r rest, pending := upd s.pending r (e :: s.pending r) }
  | issued (s : State) (r : Nat) : r < j.P → s.pc r = .send → s.toSend r = [] →
      Step j s { s with pc := upd s.pc r .loop }
  /-- The library matches a pending message from `q` with a posted listener of `d` with the
  same tag. -/
  | matched (s : State) (q d i i' : Nat) (l₁ l₂ : List (Nat × Nat)) : q < j.P → d < j.P → i' < j.K →
      s.pending q = l₁ ++ (i, d) :: l₂ → s.lis d i' = .posted → j.tag (s.rd q) i = j.tag (s.rd d) i' →
      Step j s { s with pending := upd s.pending q (l₁ ++ l₂),
                        lis := upd2 s.lis d i' (.matched q) }
  /-- `MPI_Test` succeeds: record the source and post again, L222-237 -/
  | recv (s : State) (r i q : Nat) : r < j.P → i < j.K → (s.pc r = .loop ∨ s.pc r = .bar) →
      s.lis r i = .matched q →
      Step j s { s with lis := upd2 s.lis r i .posted,
                        got := upd3 s.got r (s.rd r) i (s.got r (s.rd r) i ++ [q]) }
  /-- all sends complete: `MPI_Ibarrier`, L249-261 -/
  | enter (s : State) (r : Nat) : r < j.P → s.pc r = .loop → s.pending r = [] →
      Step j s { s with pc := upd s.pc r .bar }
  /-- barrier complete: leave the loop, L239-246 -/
  | leave (s : State) (r : Nat) : r < j.P → s.pc r = .bar → (∀ q, q < j.P → entered s (s.rd r) q) →
      Step j s { s with pc := upd s.pc r (.cancel 0) }
  /-- cancel an unmatched listener, L270-281 -/
  | cancelled (s : State) (r k : Nat) : r < j.P → s.pc r = .cancel k → k < j.K → s.lis r k = .posted →
      Step j s { s with lis := upd2 s.lis r k .none, pc := upd s.pc r (.cancel (k + 1)) }
  /-- the cancelled listener had already been matched: record it, L282-283 -/
  | rescued (s : State) (r k q : Nat) : r < j.P → s.pc r = .cancel k → k < j.K → s.lis r k = .matched q →
      Step j s { s with lis := upd2 s.lis r k .none, pc := upd s.pc r (.cancel (k + 1)),
                        got := upd3 s.got r (s.rd r) k (s.got r (s.rd r) k ++ [q]) }
  /-- return, and start the next call -/
  | finish (s : State) (r : Nat) : r < j.P → s.pc r = .cancel j.K →
      Step j s { s with rd := upd s.rd r (s.rd r + 1), pc := upd s.pc r (.post 0),
                        toSend := upd s.toSend r
                          (if s.rd r + 1 < j.rounds then j.sends (s.rd r + 1) r else []) }

/-- States reachable from the start. -/
inductive Reach (j : Job) : State → Prop
  | init : Reach j j.init
  | step {s s' : State} : Reach j s → Step j s s' → Reach j s'

end Verif.Nbx
