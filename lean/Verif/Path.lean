import Verif.Models
import Verif.Regex

/-!
# `std::path::Path` on Unix, the functions the code uses

A path is its text.  As in Rust, empty components and components `.` are skipped.
-/

namespace Reqtrace

/-- The components of a path that are neither empty nor `.`. -/
def pathParts (p : Path) : List Str :=
  (splitOnChar '/' p).filter (fun s => s != [] && s != ['.'])

/-- `Path::file_name`: the last component, unless there is none or it is `..` -/
def fileName (p : Path) : Option Str :=
  match (pathParts p).getLast? with
  | some f => if f = c!".." then none else some f
  | none => none

/-- What precedes the last `.`, if there is one (`rsplitn(2, '.')`). -/
def beforeLastDot : Str → Option Str
  | [] => none
  | c :: t => match beforeLastDot t with
    | some b => some (c :: b)
    | none => if c = '.' then some [] else none

/-- `Path::file_stem`: the file name up to its last `.`, or all of it if that would leave nothing -/
def fileStem (p : Path) : Option Str :=
  (fileName p).map fun f => match beforeLastDot f with
    | some [] => f
    | some b => b
    | none => f

/-- `Path::is_absolute` -/
def isAbsolute : Path → Bool
  | '/' :: _ => true
  | _ => false

/-- `Path::join` (`PathBuf::push`) -/
def joinPath (base p : Path) : Path :=
  if isAbsolute p then p
  else match base.getLast? with
    | none => p
    | some '/' => base ++ p
    | some _ => base ++ ['/'] ++ p

/-- Removes components that are empty or `.` from the end, but not the first component. -/
def trimBack : List Str → List Str
  | [] => []
  | first :: rest => first :: (rest.reverse.dropWhile (fun s => s == [] || s == ['.'])).reverse

/-- Components as text -/
def joinParts : List Str → Path
  | [] => []
  | [s] => s
  | s :: t => s ++ '/' :: joinParts t

/-- `Path::parent`: without the last component; the root and the empty path have no parent -/
def parent (p : Path) : Option Path :=
  match trimBack (splitOnChar '/' p) with
  | [] => none
  | [s] => if s = [] then none else some []
  | s :: t =>
    let up := trimBack ((s :: t).dropLast)
    if up = [[]] then some ['/'] else some (joinParts up)

/-- The path, its parent, the parent of that, and so on up to the root or the empty path, which is left out.
`fuel` is a bound for the number of steps. -/
def ancestorsFrom : Nat → Path → List Path
  | 0, _ => []
  | fuel + 1, p =>
    if p = [] then []
    else p :: (match parent p with
      | some q => ancestorsFrom fuel q
      | none => [])

/-- The directories that `create_dir_all` makes sure of, outermost first -/
def ancestors (p : Path) : List Path := (ancestorsFrom (p.length + 1) p).reverse

end Reqtrace
