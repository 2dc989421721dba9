import Verif.Prelude
/-!
# Model: texts in XDMF files

`add_data_item` (`cpp/dolfinx/io/xdmf_utils.h` L74-145), `get_dataset` (L151-190 for the XML format), `get_hdf5_paths`, `get_hdf5_filename` and
`get_dataset_shape` (`xdmf_utils.cpp` L69-147).

Simplifications: a text is a list of characters; writing and reading single numbers (`std::format`, `boost::lexical_cast`) are given functions;
pugixml gives back the texts that it got; file names are names within one directory, other than `.` and `..`.
-/
namespace Verif.XdmfText

abbrev Text := List Char

/-- `boost::split(…, is_any_of(…))`: adjacent separators have an empty word between them. -/
def splitAt (p : Char → Bool) : Text → List Text
  | [] => [[]]
  | c :: l =>
    if p c = true then [] :: splitAt p l
    else
      match splitAt p l with
      | [] => [[c]]
      | w :: ws => (c :: w) :: ws

/-- Characters removed by `boost::algorithm::trim`. -/
def isBlank (c : Char) : Bool := c == ' ' || c == '\n' || c == '\t' || c == '\r' || c == '\x0b' || c == '\x0c'

/-- `boost::algorithm::trim`. -/
def trim (t : Text) : Text := ((t.dropWhile isBlank).reverse.dropWhile isBlank).reverse

/-- The attribute `Dimensions` (`xdmf_utils.h` L86-90). -/
def writeDims (fmt : Int → Text) (shape : List Int) : Text := (shape.flatMap (fun d => fmt d ++ [' '])).dropLast

/-- `get_dataset_shape` (`xdmf_utils.cpp` L135-144); `none` is an exception. -/
def readDims (parse : Text → Option Int) (t : Text) : Option (List Int) := (splitAt (· == ' ') t).mapM parse

/-- Name of the HDF5 file and path in it (`xdmf_utils.h` L126-128). -/
def writePath (file path : Text) : Text := file ++ ':' :: path

/-- `get_hdf5_paths` (`xdmf_utils.cpp` L95-108). -/
def readPath (t : Text) : Option (Text × Text) :=
  match splitAt (· == ':') (trim t) with
  | [a, b] => some (a, b)
  | _ => none

/-- The separator behind number `i` in rows of `m` numbers (`xdmf_utils.h` L112). -/
def separator (m i : Nat) : Char := if (i + 1) % m = 0 ∧ m ≠ 0 then '\n' else ' '

/-- Numbers in the XML format, from number `i` on (`xdmf_utils.h` L105-113). -/
def writeXml {T : Type} (fmt : T → Text) (m : Nat) : Nat → List T → Text
  | _, [] => []
  | i, x :: l => fmt x ++ separator m i :: writeXml fmt m (i + 1) l

/-- Numbers from the XML format (`xdmf_utils.h` L183-197). -/
def readXml {T : Type} (parse : Text → Option T) (t : Text) : Option (List T) :=
  ((splitAt (fun c => c == ' ' || c == '\n') t).filter (fun w => !w.isEmpty)).mapM parse

/-- `std::filesystem::path::stem` of a file name. -/
def stem (f : Text) : Text :=
  match f.reverse.dropWhile (· != '.') with
  | [] => f
  | [_] => f
  | _ :: b => b.reverse

/-- `get_hdf5_filename` (`xdmf_utils.cpp` L111-123). -/
def h5Name (f : Text) : Option Text :=
  let p := stem f ++ ['.', 'h', '5']
  if p = f then none else some p

end Verif.XdmfText
