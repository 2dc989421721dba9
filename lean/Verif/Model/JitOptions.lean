import Verif.Prelude
/-!
# Model: options of just-in-time compilation

`_load_options` and `get_options` (`python/dolfinx/jit.py` L112-162) and `DOLFINX_DEFAULT_JIT_OPTIONS` (L25-46), in a program that also changes
the working directory, the environment and files, and that assigns to the dictionaries it has.

Simplifications: values are atoms or lists of strings; lists and dictionaries are Python objects with an address.  The place of a key in a
dictionary is not observed: a key that is assigned again moves to the end.  `Path(str(v)).expanduser()` is a function `path`.
-/
namespace Verif.JitOptions

/-- A Python value in a dictionary: an atom, or the address of a list. -/
inductive Val where
  | atom (s : String)
  | ref (r : Nat)

/-- A value as written in a file or in a program. -/
inductive JVal where
  | atom (s : String)
  | list (l : List String)
deriving DecidableEq

abbrev Dict := List (String × Val)
abbrev JDict := List (String × JVal)

/-- What `open` and `json.load` find. -/
inductive File where
  | missing
  | bad
  | good (d : JDict)

/-- What a program can change outside of Python. -/
structure Env where
  file : String → File
  cwd : String
  config : String

/-- Lists and dictionaries by address, the values of `DOLFINX_DEFAULT_JIT_OPTIONS`, the cache of `_load_options`, the dictionaries the program has. -/
structure JState where
  lists : List (List String)
  dicts : List Dict
  defaults : Dict
  cached : Option (Nat × Nat)
  held : List Nat
  env : Env

/-- `d[k]`. -/
def look {α : Type} : List (String × α) → String → Option α
  | [], _ => none
  | (a, v) :: d, k => (look d k).or (if a = k then some v else none)

/-- `d[k] = v`. -/
def dictPut (d : Dict) (k : String) (v : Val) : Dict := d.filter (fun kv => decide (kv.1 ≠ k)) ++ [(k, v)]

/-- `d.update(e)`. -/
def update (d e : Dict) : Dict := e.foldl (fun d kv => dictPut d kv.1 kv.2) d

/-- What a value looks like. -/
def view (lists : List (List String)) : Val → JVal
  | .atom s => .atom s
  | .ref r => .list (lists.getD r [])

/-- The objects for values that are written in a file or in a program. -/
def alloc (lists : List (List String)) : JDict → List (List String) × Dict
  | [] => (lists, [])
  | (k, .atom s) :: l => ((alloc lists l).1, (k, .atom s) :: (alloc lists l).2)
  | (k, .list x) :: l => ((alloc (lists ++ [x]) l).1, (k, .ref lists.length) :: (alloc (lists ++ [x]) l).2)

/-- A new dictionary. -/
def newDict (s : JState) (d : JDict) : JState × Nat :=
  ({ s with lists := (alloc s.lists d).1, dicts := s.dicts ++ [update [] (alloc s.lists d).2] }, s.dicts.length)

/-- `with open(…) as f: json.load(f)`, `except FileNotFoundError: dict()` (`jit.py` L118-122, L125-129). -/
def loadFile (s : JState) (name : String) : JState × Option Nat :=
  match s.env.file name with
  | .missing => ((newDict s []).1, some (newDict s []).2)
  | .bad => (s, none)
  | .good d => ((newDict s d).1, some (newDict s d).2)

/-- The file with the user's options (`jit.py` L115-117). -/
def userFile (e : Env) : String := e.config ++ "/dolfinx/dolfinx_jit_options.json"

/-- The file in the working directory (`jit.py` L124). -/
def pwdFile (e : Env) : String := e.cwd ++ "/dolfinx_jit_options.json"

/-- `_load_options` with `functools.cache`, which keeps results but no exceptions (`jit.py` L112-131). -/
def loadOptions (s : JState) : JState × Option (Nat × Nat) :=
  match s.cached with
  | some up => (s, some up)
  | none =>
    match loadFile s (userFile s.env) with
    | (s, none) => (s, none)
    | (s, some u) =>
      match loadFile s (pwdFile s.env) with
      | (s, none) => (s, none)
      | (s, some p) => ({ s with cached := some (u, p) }, some (u, p))

/-- The dictionary at an address. -/
def dictAt (s : JState) (a : Nat) : Dict := s.dicts.getD a []

/-- `options.update(d)` for the dictionary `options` at `a`. -/
def updateAt (s : JState) (a : Nat) (d : Dict) : JState := { s with dicts := s.dicts.set a (update (dictAt s a) d) }

/-- `if priority_options is not None: options.update(priority_options)` (`jit.py` L157-158). -/
def updatePrio (s : JState) (a : Nat) : Option Nat → JState
  | none => s
  | some b => updateAt s a (dictAt s b)

/-- `get_options` (`jit.py` L134-162); `none` after an exception. -/
def getOptions (path : JVal → String) (s : JState) (prio : Option Nat) : JState × Option Nat :=
  let a := (newDict s []).2
  let s := updateAt (newDict s []).1 a s.defaults
  match loadOptions s with
  | (s, none) => (s, none)
  | (s, some (u, p)) =>
    let s := updateAt s a (dictAt s u)
    let s := updateAt s a (dictAt s p)
    let s := updatePrio s a prio
    match look (dictAt s a) "cache_dir" with
    | none => (s, none)
    | some v => ({ s with dicts := s.dicts.set a (dictPut (dictAt s a) "cache_dir" (.atom (path (view s.lists v)))), held := s.held ++ [a] }, some a)

/-- The program's statements; `i` counts the dictionaries that the program has. -/
inductive Op where
  | get (prio : Option Nat)
  | dict (d : JDict)
  | assign (i : Nat) (k : String) (v : JVal)
  | append (i : Nat) (k : String) (x : String)
  | chdir (d : String)
  | setConfig (d : String)
  | write (name : String) (f : File)

/-- The address of a dictionary that the program has. -/
def addr (s : JState) (prio : Option Nat) : Option Nat := prio.bind (fun i => s.held[i]?)

/-- One statement. -/
def jstep (path : JVal → String) (s : JState) : Op → JState
  | .get prio => (getOptions path s (addr s prio)).1
  | .dict d => { (newDict s d).1 with held := s.held ++ [(newDict s d).2] }
  | .assign i k v =>
    match s.held[i]? with
    | none => s
    | some a => updateAt { s with lists := (alloc s.lists [(k, v)]).1 } a (alloc s.lists [(k, v)]).2
  | .append i k x =>
    match s.held[i]? with
    | none => s
    | some a =>
      match look (dictAt s a) k with
      | some (.ref r) => { s with lists := s.lists.set r (s.lists.getD r [] ++ [x]) }
      | _ => s
  | .chdir d => { s with env := { s.env with cwd := d } }
  | .setConfig d => { s with env := { s.env with config := d } }
  | .write name f => { s with env := { s.env with file := fun n => if n = name then f else s.env.file n } }

/-- A program. -/
def jrun (path : JVal → String) (s : JState) (l : List Op) : JState := l.foldl (jstep path) s

/-- The module `dolfinx.jit` has been imported, with these defaults. -/
def jstart (defaults : JDict) (e : Env) : JState :=
  ⟨(alloc [] defaults).1, [], (alloc [] defaults).2, none, [], e⟩

end Verif.JitOptions
