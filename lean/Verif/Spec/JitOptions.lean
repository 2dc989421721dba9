import Verif.Model.JitOptions
/-! Specification of the options of just-in-time compilation. -/
namespace Verif.Spec.JitOptions
open Verif.JitOptions

/-- The last value for a key. -/
def lastVal (l : JDict) (k : String) : Option JVal := (l.reverse.find? (fun kv => kv.1 == k)).map (·.2)

/-- The options in a file, if it can be read; a file that does not exist has none. -/
def content : File → Option JDict
  | .missing => some []
  | .bad => none
  | .good d => some d

/-- The files for the user and for the working directory as they are now, if both can be read. -/
def filesNow (e : Env) : Option (JDict × JDict) :=
  match content (e.file (e.config ++ "/dolfinx/dolfinx_jit_options.json")), content (e.file (e.cwd ++ "/dolfinx_jit_options.json")) with
  | some u, some p => some (u, p)
  | _, _ => none

/-- What the program does outside of Python. -/
def envStep (e : Env) : Op → Env
  | .chdir d => { e with cwd := d }
  | .setConfig d => { e with config := d }
  | .write name f => { e with file := fun n => if n = name then f else e.file n }
  | _ => e

/-- The files as they were when the options were asked for the first time with readable files. -/
def seen (e : Env) (old : Option (JDict × JDict)) : List Op → Option (JDict × JDict)
  | [] => old
  | .get _ :: l => seen e (match old with | some x => some x | none => filesNow e) l
  | op :: l => seen (envStep e op) old l

/-- What a dictionary of the program looks like. -/
def shows (s : JState) (a : Option Nat) (k : String) : Option JVal := a.bind (fun a => (look (dictAt s a) k).map (view s.lists))

/-- The program changes no list in place. -/
def NoAppend : Op → Prop
  | .append .. => False
  | _ => True

end Verif.Spec.JitOptions
