/-!
# Timers and the time logger

Model of `common/Timer.h` L38-140, `common/TimeLogger.cpp` L24-38 and L68-80, and of the class `Timer` of
`python/dolfinx/common.py` L81-181.  Time points are numbers of ticks of the clock; durations are integers, and the sum of
`double`s in the logger is exact.
-/
namespace Verif.Timer

/-- Members of `Timer`, Timer.h L132-139. -/
structure Timer where
  task : Option String
  acc : Int
  start : Option Nat
deriving DecidableEq

/-- Calls of methods. -/
inductive Op where
  | start
  | stop
  | resume
  | elapsed
  | flush
deriving DecidableEq

/-- Exception of `flush`, Timer.h L121-122. -/
inductive Res where
  | nothing
  | duration (d : Int)
  | notStopped
deriving DecidableEq

/-- A timing handed to the logger. -/
abbrev Reg := String × Int

/-- The constructor, Timer.h L50-52 and L136-139. -/
def create (task : Option String) (now : Nat) : Timer := ⟨task, 0, some now⟩

/-- `T::now() - *_start_time` if the timer is running. -/
def sinceStart (t : Timer) (now : Nat) : Int :=
  match t.start with
  | some s => (now : Int) - s
  | none => 0

/-- `flush`, Timer.h L119-129. -/
def flush (t : Timer) : Timer × List Reg × Res :=
  if t.start.isSome then (t, [], .notStopped)
  else match t.task with
    | some name => ({ t with task := none }, [(name, t.acc)], .nothing)
    | none => (t, [], .nothing)

/-- A call at a time: the timer, timings registered, and the result. -/
def call (t : Timer) (now : Nat) : Op → Timer × List Reg × Res
  -- L66-70
  | .start => ({ t with acc := 0, start := some now }, [], .nothing)
  -- L92-101
  | .stop =>
    let t' : Timer := { t with acc := t.acc + sinceStart t now, start := none }
    (t', [], .duration t'.acc)
  -- L106-110
  | .resume => ({ t with start := if t.start.isSome then t.start else some now }, [], .nothing)
  -- L78-84
  | .elapsed => (t, [], .duration (sinceStart t now + t.acc))
  | .flush => flush t

/-- The destructor, Timer.h L56-63. -/
def destroy (t : Timer) (now : Nat) : List Reg :=
  match t.start, t.task with
  | some _, some name => [(name, t.acc + sinceStart t now)]
  | _, _ => []

/-- A sequence of calls: the timer, all timings registered, and the results. -/
def run (t : Timer) : List (Nat × Op) → Timer × List Reg × List Res
  | [] => (t, [], [])
  | c :: cs =>
    let r := call t c.1 c.2
    let s := run r.1 cs
    (s.1, r.2.1 ++ s.2.1, r.2.2 :: s.2.2)

/-- `with t: ...` of Python, common.py L138-146: entered and left at the given times. -/
def withBlock (t : Timer) (enter leave : Nat) (body : List (Nat × Op)) : Timer × List Reg × List Res :=
  run t ((enter, .start) :: body ++ [(leave, .stop), (leave, .flush)])

/-- `_timings` of the logger: number and total for each task. -/
abbrev Log := List (String × Nat × Int)

/-- `register_timing`, TimeLogger.cpp L24-38. -/
def register (L : Log) (r : Reg) : Log :=
  match L.lookup r.1 with
  | some _ => L.map fun e => if e.1 = r.1 then (e.1, e.2.1 + 1, e.2.2 + r.2) else e
  | none => L ++ [(r.1, 1, r.2)]

/-- `timing`, TimeLogger.cpp L68-80; `none` is the exception. -/
def timing (L : Log) (task : String) : Option (Nat × Int) := L.lookup task

end Verif.Timer
