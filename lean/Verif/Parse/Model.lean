import Verif.Str.Basic
/-!
Model of the command line parsing helpers of parse.py. Strings are lists of characters. `parser.error` ends the program
(argparse), it is an error result here.
-/
namespace Cis.Parse
open Cis.Str

/-! ### Colons -/

/-- `re.split(r'(?<!\\):', s)` (parse.py:575): split at colons not preceded by a backslash; `esc` says that the character
before is a backslash. -/
def splitColon (esc : Bool) : Str → List Str
  | [] => [[]]
  | c :: t =>
    if c = ':' && !esc then [] :: splitColon false t
    else match splitColon (c = '\\') t with
      | [] => [[c]]
      | f :: fs => (c :: f) :: fs

/-- `re.sub(r'([\\]):', r':', word)` (parse.py:575). -/
def unescape : Str → Str
  | [] => []
  | [c] => [c]
  | a :: b :: t => if a = '\\' ∧ b = ':' then ':' :: unescape t else a :: unescape (b :: t)

/-- The colon separated fields of an argument (parse.py:575). -/
def colonFields (s : Str) : List Str := (splitColon false s).map unescape

/-! ### Brackets -/

/-- State of the first loop of `split_outside_brackets` (parse.py:642-645). -/
structure BState where
  matchBrackets : List Char    -- the Python list, last element first
  matchBracket : Option Char
  inBrackets : Nat
  sepIdxs : List Nat           -- last element first

/-- One turn of the first loop (parse.py:646-657); `close` is the map of open to close brackets. -/
def bstep (seps : List Char) (close : Char → Option Char) (st : BState) (idx : Nat) (c : Char) : BState :=
  match close c with
  | some b =>
    { st with
      matchBrackets := if st.inBrackets > 0 then (st.matchBracket.getD b) :: st.matchBrackets else st.matchBrackets
      matchBracket := some b
      inBrackets := st.inBrackets + 1 }
  | none =>
    if st.inBrackets > 0 ∧ st.matchBracket = some c then
      if st.inBrackets - 1 > 0 then
        { st with inBrackets := st.inBrackets - 1, matchBracket := st.matchBrackets.head?, matchBrackets := st.matchBrackets.tail }
      else { st with inBrackets := st.inBrackets - 1 }
    else if c ∈ seps ∧ st.inBrackets = 0 then { st with sepIdxs := idx :: st.sepIdxs }
    else st

/-- The first loop. -/
def bloop (seps : List Char) (close : Char → Option Char) : BState → Nat → Str → BState
  | st, _, [] => st
  | st, i, c :: t => bloop seps close (bstep seps close st i c) (i + 1) t

/-- The second loop (parse.py:659-665): slices between the separators; the last one only if not empty. -/
def slices (s : Str) : Nat → List Nat → List Str
  | start, [] => if start < s.length then [s.drop start] else []
  | start, i :: t => (s.take i).drop start :: slices s (i + 1) t

/-- `split_outside_brackets` (parse.py:635-666). -/
def splitOutside (seps : List Char) (close : Char → Option Char) (s : Str) : List Str :=
  slices s 0 (bloop seps close ⟨[], none, 0, []⟩ 0 s).sepIdxs.reverse

/-- The default brackets (parse.py:635). -/
def defaultClose : Char → Option Char
  | '[' => some ']'
  | '(' => some ')'
  | _ => none

/-! ### Several separators -/

/-- The splitting loop of `multi_split` (parse.py:684-689). -/
def splitAll (seps : List Char) (s : Str) : List Str :=
  seps.foldl (fun res sep => res.flatMap (splitChar sep)) [s]

/-- The loop removing blanks (parse.py:691-694): iterates by index over the list it changes; `res.index(i)` is the first
blank. -/
def removeBlanks : Nat → Nat → List Str → List Str
  | 0, _, res => res
  | fuel + 1, i, res =>
    match res[i]? with
    | none => res
    | some x => if x = [] then removeBlanks fuel (i + 1) (res.erase []) else removeBlanks fuel (i + 1) res

/-- `multi_split` (parse.py:679-696). -/
def multiSplit (s : Str) (seps : List Char) : List Str :=
  removeBlanks (splitAll seps s).length 0 (splitAll seps s)

/-! ### Aliases -/

/-- One entry of the variables (parse.py:731-743): the variable and its alias; `none` is `parser.error`. -/
def parseAlias (v : Str) : Option (Str × Str) :=
  match splitChar '=' v with
  | [a] => if a = [] then none else some (v, v)
  | [a, b] => if a = [] ∨ b = [] then none else some (a, b)
  | _ => none

/-- The entries of a datagroup; `none` is `parser.error`. -/
def parseAliases : List Str → Option (List (Str × Str))
  | [] => some []
  | v :: t => match parseAlias v, parseAliases t with
    | some p, some l => some (p :: l)
    | _, _ => none

/-- The datagroups one after the other (parse.py:727-746). -/
def parseGroups : List (List Str) → Option (List (List (Str × Str)))
  | [] => some []
  | g :: t => match parseAliases g, parseGroups t with
    | some p, some l => some (p :: l)
    | _, _ => none

/-- `_set_aliases_for_datagroups` (parse.py:714-749): for each datagroup the variables with their aliases; `none` is
`parser.error`. `len(set(l)) == len(l)` is that no element occurs twice. -/
def setAliases (groups : List (List Str)) : Option (List (List (Str × Str))) :=
  match parseGroups groups with
  | none => none
  | some gs => if (gs.flatMap (fun g => g.map Prod.snd)).Nodup then some gs else none

/-! ### Output file -/

/-- What is asked of the operating system: `os.path.isfile`, `os.path.exists`, `os.path.samefile` (for existing files),
the extension part of `os.path.splitext`. -/
structure OS where
  isfile : Str → Bool
  pathExists : Str → Bool
  samefile : Str → Str → Bool
  ext : Str → Str

/-- The outcome of the validation of the output. -/
inductive Outcome
  | proceed (output : Str) (var : Option Str)
  | noOperation             -- parser.exit, "No operation performed"
  | error                   -- parser.error
  | waiting                 -- the prompt is not answered (end of the answers given)
deriving Repr, DecidableEq

/-- The prompt loop (parse.py:821-823) on the sequence of answers. -/
def prompt : List Str → Option Str
  | [] => none
  | a :: t => if a = ['y'] ∨ a = ['n'] ∨ a = [] then some a else prompt t

/-- `_file_already_exists_and_no_overwrite` (parse.py:811-827); `none`: waiting for an answer. `env` is the lower case value
of the environment variable, empty if not set. -/
def existsNoOverwrite (os : OS) (output : Str) (force : Bool) (env : Str) (answers : List Str) : Option Bool :=
  if os.isfile output then
    if force then some false
    else if env ≠ [] then some (env = "false".toList)
    else (prompt answers).map (fun a => decide (a ≠ ['y']))
  else some false

/-- `_output_file_matches_an_input_file` (parse.py:830-852). -/
def matchesInput (os : OS) (output : Str) (inputs : List Str) : Bool :=
  inputs.any (fun i => os.pathExists output && os.samefile output i)

/-- `_split_output_if_includes_variable_name` (parse.py:791-798); `none` is `parser.error`. -/
def splitOutput (output : Str) : Option (Option Str × Str) :=
  if ':' ∈ output then
    match splitChar ':' output with
    | [v, o] => some (some v, o)
    | _ => none
  else some (none, output)

/-- The default extension is added to a name without one (parse.py:803-804). -/
def withExt (os : OS) (defaultExt output : Str) : Str := if os.ext output = [] then output ++ defaultExt else output

/-- `_validate_output_file` (parse.py:801-808). -/
def validateOutput (os : OS) (defaultExt output : Str) (force : Bool) (env : Str) (answers inputs : List Str) : Outcome :=
  match splitOutput output with
  | none => .error
  | some (var, o) =>
    match existsNoOverwrite os (withExt os defaultExt o) force env answers with
    | none => .waiting
    | some true => .noOperation
    | some false => if matchesInput os (withExt os defaultExt o) inputs then .error else .proceed (withExt os defaultExt o) var

end Cis.Parse
