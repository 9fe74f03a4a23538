/-
The choice of the files of the map: /repo/simulation/traffic_simulator/include/traffic_simulator/api/configuration.hpp (called CF),
/repo/openscenario/openscenario_interpreter/src/openscenario_interpreter.cpp (IN) and
/repo/openscenario/openscenario_interpreter/src/syntax/file.cpp (FI).

Names and paths are lists of characters, compared by their codes: characters outside ASCII, where `char` may be negative, are not modelled.
The file system is a function giving the names in a directory, in the order in which the operating system lists them, and nothing for what is
not a directory. `lanelet_map::activate`, CF 77 and 89, which loads the map, is not modelled here.
-/
namespace Verif.Maps

/-- A text. -/
abbrev Text := List Char

/-- The names in a directory; `none` if there is no directory at the path. -/
abbrev Files := Text → Option (List Text)

/-- `std::filesystem::path::extension` of a file name (C++ standard library, not in /repo): from the last full stop on; nothing if there is
none, if it is the first character, or if the name is `..`. -/
def extension (name : Text) : Text :=
  if name = ".".toList ∨ name = "..".toList then []
  else
    let tail := name.reverse.takeWhile (· ≠ '.')
    if tail.length + 1 < name.length then '.' :: tail.reverse else []

/-- `std::lexicographical_compare` of two texts (C++ standard library, not in /repo). -/
def less : Text → Text → Bool
  | _, [] => false
  | [], _ :: _ => true
  | a :: s, b :: t => if a < b then true else if b < a then false else less s t

/-- The loop of `findLexicographicallyFirstFilenameOf`, CF 119-127: `result` so far. -/
def findStep (ext : Text) (result name : Text) : Text :=
  if extension name = ext ∧ less result name = true then name else result

/-- `findLexicographicallyFirstFilenameOf`, CF 114-130, on the names in the directory. -/
def find (names : List Text) (ext : Text) : Text := names.foldl (findStep ext) []

/-- The errors of CF 94-103. -/
inductive Refusal where
  | noPath
  | notDirectory
  | noOsm
  | noPcd
  deriving DecidableEq, Repr

/-- `assertMapPath`, CF 92-106, with `contains`, CF 108-112: the names in the directory if it is accepted. -/
def assertMapPath (files : Files) (path : Text) : Except Refusal (List Text) :=
  if path = [] then .error .noPath
  else
    match files path with
    | none => .error .notDirectory
    | some names =>
      if find names ".osm".toList = [] then .error .noOsm
      else if find names ".pcd".toList = [] then .error .noPcd
      else .ok names

/-- A configuration, as far as the map goes: `map_path`, `lanelet2_map_file` and `pointcloud_map_file`, CF 60-64. -/
structure Configuration where
  directory : Text
  lanelet2 : Text
  pointcloud : Text
  deriving DecidableEq, Repr

/-- The constructor with the path of a directory, CF 68-78. -/
def ofDirectory (files : Files) (path : Text) : Except Refusal Configuration :=
  match assertMapPath files path with
  | .error e => .error e
  | .ok names => .ok ⟨path, find names ".osm".toList, find names ".pcd".toList⟩

/-- The constructor with the path of a directory and the name of a lanelet2 map, CF 80-90. -/
def ofFile (files : Files) (path name : Text) : Except Refusal Configuration :=
  match assertMapPath files path with
  | .error e => .error e
  | .ok names => .ok ⟨path, name, find names ".pcd".toList⟩

/-- `std::filesystem::path::filename` (C++ standard library, not in /repo): what follows the last slash. -/
def filename (path : Text) : Text := (path.reverse.takeWhile (· ≠ '/')).reverse

/-- `std::filesystem::path::parent_path` (C++ standard library, not in /repo): what precedes the last slash, without further slashes at its
end, except for the root. -/
def parentPath (path : Text) : Text :=
  let rest := path.reverse.dropWhile (· ≠ '/')
  let stripped := (rest.dropWhile (· = '/')).reverse
  if stripped = [] ∧ rest ≠ [] then ['/'] else stripped

/-- `makeCurrentConfiguration`, IN 82-97, for the path given by `LogicFile`, with `isDirectory`, FI 31. -/
def makeCurrentConfiguration (files : Files) (logicFile : Text) : Except Refusal Configuration :=
  if (files logicFile).isNone ∧ extension (filename logicFile) = ".osm".toList then
    ofFile files (parentPath logicFile) (filename logicFile)
  else ofDirectory files logicFile

end Verif.Maps
