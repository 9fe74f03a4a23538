import Verif.Reader.Spec
/-
Reading of attributes: /repo/openscenario/openscenario_interpreter/src/reader/attribute.cpp, called RA below, and
/repo/openscenario/openscenario_interpreter/include/openscenario_interpreter/reader/attribute.hpp, called RH below.

Strings are lists of characters; characters beyond ASCII are bytes in the code and take no part in the pattern.
-/
namespace Verif.Reader
open Spec

/-- How reading can fail: with an exception, or with undefined behaviour. -/
inductive Fault where
  | thrown
  | undefined
  deriving DecidableEq

/-- What is outside: the directory of the scenario, `get_package_share_directory`, the output of a command, which may fail, and the lookup of a parameter
(`Scope::ref`, C23 and C47), printed as text. The lookup throws if there is none, so the branches for an empty result in RA:55-59 and RH:65-71 are never taken. -/
structure World where
  dirname : List Char
  share : List Char → Option (List Char)
  command : List Char → Option (List Char)
  ref : List Char → Option (List Char)

/-- `remove_trailing_newline`, RA:32-37: for a text of line ends only, `back` of an empty string is undefined. -/
def trimEnd (s : List Char) : Except Fault (List Char) :=
  if s.all (· == '\n') then .error .undefined else .ok (s.reverse.dropWhile (· == '\n')).reverse

/-- `ros2`, RA:31-51. -/
def ros2 (w : World) (argument : List Char) : Except Fault (List Char) :=
  match w.command ("ros2 ".toList ++ argument) with
  | none => .error .thrown
  | some out => match trimEnd out with
    | .error e => .error e
    | .ok r => if r.contains '\n' then .error .thrown else .ok r

/-- `var`, RA:53-60. -/
def var (w : World) (name : List Char) : Except Fault (List Char) :=
  match w.ref name with
  | none => .error .thrown
  | some v => .ok v

/-- The table `substitutions` and its use, RA:63-77 and 83-87. -/
def one (w : World) (word argument : List Char) : Except Fault (List Char) :=
  if word = "dirname".toList then .ok w.dirname
  else if word = "find-pkg-share".toList then
    match w.share argument with
    | some d => .ok d
    | none => .error .thrown
  else if word = "ros2".toList then ros2 w argument
  else if word = "var".toList then var w argument
  else .error .thrown

/-- At most one white space, `\s?` in RA:79. -/
def skipSpace : List Char → List Char
  | c :: l => if c.isWhitespace then l else c :: l
  | [] => []

/-- The pattern behind `$(`, RA:79: the longest word, at most one white space, everything up to the first closing parenthesis, and the rest on one line. -/
def matchTail (s : List Char) : Option (List Char × List Char × List Char) :=
  let word := s.takeWhile wordChar
  let rest := skipSpace (s.dropWhile wordChar)
  match rest.dropWhile (· != ')') with
  | _ :: after => if word = [] ∨ after.any (fun c => c == '\n' || c == '\r') then none else some (word, rest.takeWhile (· != ')'), after)
  | [] => none

/-- The pattern from `$(` on, RA:79. -/
def here : List Char → Option (List Char × List Char × List Char)
  | '$' :: '(' :: s => matchTail s
  | _ => none

/-- `std::regex_match` with the pattern, RA:79 and 82: the first group is the longest that leaves something that matches, so the last substitution is found. -/
def last : List Char → Option (List Char × List Char × List Char × List Char)
  | [] => none
  | c :: l =>
    if c == '\n' || c == '\r' then none
    else match last l with
      | some (before, r) => some (c :: before, r)
      | none => (here (c :: l)).map fun r => ([], r)

/-- The loop of `substitute`, RA:81-88, and its result. The outer `none` means that it does not end. -/
def substitute (w : World) (s : List Char) : Option (Except Fault (List Char)) :=
  match last s with
  | none => some (.ok s)
  | some (before, word, argument, after) => match one w word argument with
    | .error e => some (.error e)
    | .ok v => substitute w (before ++ v ++ after)
partial_fixpoint

/-- `readAttribute`, RH:46-106, for a type with the value `T()`, `lexical_cast` from text, and `lexical_cast` of the value of an expression (C24). -/
def readAttribute {T : Type} (w : World) (default : T) (cast : List Char → Option T) (eval : List Char → Option T) (attr : Option (List Char)) :
    Option (Except Fault T) :=
  let result (r : Option T) : Except Fault T := match r with
    | some x => .ok x
    | none => .error .thrown
  match attr with
  | none => some (.error .thrown)
  | some s => (substitute w s).map fun r => match r with
    | .error e => .error e
    | .ok v =>
      if v = [] then .ok default
      else if v.take 2 = ['$', '{'] ∧ v.getLast? = some '}' then result (eval (v.drop 2).dropLast)
      else match v with
        | '$' :: name => match w.ref name with
          | none => .error .thrown
          | some x => result (cast x)
        | _ => result (cast v)

/-- `readAttribute` with a default value, RH:119-128, and with `std::nullopt`, RH:130-138: the value is used if there is no attribute. -/
def readAttributeOr {T : Type} (w : World) (default : T) (cast : List Char → Option T) (eval : List Char → Option T) (attr : Option (List Char)) (value : T) :
    Option (Except Fault T) :=
  match attr with
  | none => some (.ok value)
  | some s => readAttribute w default cast eval (some s)

end Verif.Reader
