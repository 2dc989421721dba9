import Mathlib.Logic.Relation
/-!
# Just-in-time compilation on all ranks

Model of `mpi_jit_decorator`, `python/dolfinx/jit.py` L49-109, on `P` ranks of which at least two call the decorated function
(with one rank it only calls the compiler, L64-65).  Ranks run independently: a step is one step of one rank.  `comm.bcast`
lets rank 0 go on at once and other ranks when rank 0 has called it; `comm.allreduce` lets a rank go on when all ranks have
called it.  A call of the compiler begins and ends at different times; what it gives may depend on the rank and on all
calls that have begun or ended before.
-/
namespace Verif.MpiJit

/-- How a call of the compiler ends: with a value, with an `Exception`, or with another exception (`KeyboardInterrupt`,
`SystemExit`), which `except Exception` does not catch. -/
inductive Outcome (V : Type) where
  | ok (v : V)
  | fail
  | interrupt
deriving DecidableEq

/-- Calls of the compiler. -/
inductive Event (V : Type) where
  | begins (r : Nat)
  | ends (r : Nat) (o : Outcome V)
deriving DecidableEq

/-- The `RuntimeError`s of L87, L89 and L104. -/
inductive Msg where
  | compilation
  | rankZero
  | cache
deriving DecidableEq

/-- Where a rank is, with `status` and `output`. -/
inductive Pc (V : Type) where
  /-- L67 -/
  | entry
  /-- in `local_jit`, L76 or L95 -/
  | calling
  /-- before `bcast`, L83 -/
  | bcast (status : Option Nat) (output : Option V)
  /-- L92, ranks other than 0 -/
  | ready
  /-- in `allreduce`, L102 -/
  | reduce (statusLocal : Nat) (output : Option V)
  | returned (output : Option V)
  | raised (m : Msg)
  /-- left with an exception that is not caught -/
  | left
deriving DecidableEq

/-- All ranks, the message of `bcast`, values handed to `allreduce`, calls of the compiler. -/
structure St (V : Type) where
  pc : Nat → Pc V
  sent : Option Nat
  contrib : Nat → Option Nat
  trace : List (Event V)

/-- Assignment. -/
def upd {α : Type} (f : Nat → α) (r : Nat) (x : α) : Nat → α := fun q => if q = r then x else f q

/-- All ranks at the first line. -/
def start {V : Type} : St V := ⟨fun _ => .entry, none, fun _ => none, []⟩

/-- `op=MPI.MAX`. -/
def anyFail (P : Nat) (c : Nat → Option Nat) : Nat := (List.range P).foldl (fun m q => max m ((c q).getD 0)) 0

/-- After the call on rank 0, L75-79. -/
def afterRoot {V : Type} : Outcome V → Pc V
  | .ok v => .bcast (some 0) (some v)
  | .fail => .bcast (some 1) none
  | .interrupt => .left

/-- After the call on another rank, L93-98. -/
def afterOther {V : Type} : Outcome V → Pc V
  | .ok v => .reduce 0 (some v)
  | .fail => .reduce 1 none
  | .interrupt => .left

/-- Value that a rank hands to `allreduce`. -/
def handed {V : Type} : Pc V → Option Nat
  | .reduce st _ => some st
  | _ => none

/-- A step of one rank; `out` gives the outcome of a call. -/
inductive Step {V : Type} (P : Nat) (out : Nat → List (Event V) → Outcome V) : St V → St V → Prop
  /-- L74-76 -/
  | rootCall (s : St V) : s.pc 0 = .entry → Step P out s { s with pc := upd s.pc 0 .calling, trace := s.trace ++ [.begins 0] }
  /-- L80-81 -/
  | otherEntry (s : St V) (r : Nat) : r ≠ 0 → r < P → s.pc r = .entry → Step P out s { s with pc := upd s.pc r (.bcast none none) }
  /-- L75-79 -/
  | rootEnd (s : St V) : s.pc 0 = .calling →
      Step P out s { s with pc := upd s.pc 0 (afterRoot (out 0 s.trace)), trace := s.trace ++ [.ends 0 (out 0 s.trace)] }
  /-- L83-87 on rank 0, failure -/
  | rootFail (s : St V) (st : Nat) (o : Option V) : s.pc 0 = .bcast (some st) o → st ≠ 0 →
      Step P out s { s with pc := upd s.pc 0 (.raised .compilation), sent := some st }
  /-- L83, L99-102 on rank 0, success -/
  | rootSent (s : St V) (o : Option V) : s.pc 0 = .bcast (some 0) o →
      Step P out s { s with pc := upd s.pc 0 (.reduce 0 o), sent := some 0, contrib := upd s.contrib 0 (some 0) }
  /-- L83-90 on other ranks -/
  | receive (s : St V) (r st : Nat) (m : Option Nat) (o : Option V) : r ≠ 0 → r < P → s.pc r = .bcast m o → s.sent = some st →
      Step P out s { s with pc := upd s.pc r (if st ≠ 0 then .raised .rankZero else .ready) }
  /-- L92-95 -/
  | otherCall (s : St V) (r : Nat) : r ≠ 0 → r < P → s.pc r = .ready →
      Step P out s { s with pc := upd s.pc r .calling, trace := s.trace ++ [.begins r] }
  /-- L93-98, L102 -/
  | otherEnd (s : St V) (r : Nat) : r ≠ 0 → r < P → s.pc r = .calling →
      Step P out s { s with pc := upd s.pc r (afterOther (out r s.trace)), trace := s.trace ++ [.ends r (out r s.trace)],
                            contrib := upd s.contrib r (handed (afterOther (out r s.trace))) }
  /-- L102-106 -/
  | reduced (s : St V) (r st : Nat) (o : Option V) : r < P → s.pc r = .reduce st o → (∀ q, q < P → s.contrib q ≠ none) →
      Step P out s { s with pc := upd s.pc r (if anyFail P s.contrib ≠ 0 then .raised .cache else .returned o) }

/-- Executions. -/
def Reach {V : Type} (P : Nat) (out : Nat → List (Event V) → Outcome V) (s : St V) : Prop := Relation.ReflTransGen (Step P out) start s

end Verif.MpiJit
