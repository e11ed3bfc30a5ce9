import Verif.Parse.Spec
/-!
Model of the optional arguments of a datagroup, `parse_colon_and_comma_separated_arguments` (parse.py:562-632).
-/
namespace Cis.Parse
open Cis.Str

variable {V : Type}

/-- The options of a datagroup: the name and the function checking and converting the value; `none` is `parser.error`. -/
abbrev Opts (V : Type) := List (Str × (Str → Option V))

/-- Split a segment at '=' (parse.py:605, 621). -/
def keyVal (j : Str) : List Str := splitOutside ['='] defaultClose j

/-- The inner loop (parse.py:619-624): by index over the list from which it removes the segments; `none` is an exception or
`parser.error`. The dictionary is a list, latest assignment first. `fuel` bounds the number of turns, the initial length of
the list being enough. -/
def innerLoop (o : Str) (chk : Str → Option V) : Nat → Nat → List Str → List (Str × V) → Option (List Str × List (Str × V))
  | 0, _, l, d => some (l, d)
  | fuel + 1, i, l, d =>
    match l[i]? with
    | none => some (l, d)
    | some j =>
      match keyVal j with
      | [] => none                                     -- IndexError
      | [k] => if k = o then none else innerLoop o chk fuel (i + 1) l d
      | k :: v :: _ =>
        if k = o then
          match chk v with
          | none => none
          | some x => innerLoop o chk fuel (i + 1) (l.erase j) ((o, x) :: d)
        else innerLoop o chk fuel (i + 1) l d

/-- The outer loop (parse.py:618). -/
def outerLoop : Opts V → List Str → List (Str × V) → Option (List Str × List (Str × V))
  | [], l, d => some (l, d)
  | (o, chk) :: t, l, d =>
    match innerLoop o chk l.length 0 l d with
    | none => none
    | some (l', d') => outerLoop t l' d'

/-- The part for the optional arguments (parse.py:591-628), without the compulsory ones; `raw` is the value stored without a
check; `none` is an exception or `parser.error`. -/
def parseOptional (opts : Opts V) (raw : Str → V) (field : Option Str) : Option (List (Str × V)) :=
  let comma := match field with
    | some f => splitOutside [','] defaultClose f
    | none => []
  if comma.length > opts.length then none
  else
    match opts, comma with
    | [(o, chk)], [seg] =>
      match keyVal seg with
      | [v] => some [(o, raw v)]
      | [k, v] => if o = k then some [(o, raw v)] else
          match outerLoop [(o, chk)] [seg] [] with
          | some ([], d) => some d
          | _ => none
      | _ => none
    | _, _ =>
      match outerLoop opts comma [] with
      | some ([], d) => some d
      | _ => none

end Cis.Parse
