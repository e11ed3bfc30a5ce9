import Mathlib.Tactic
import Verif.Parse.Model
set_option linter.unusedSectionVars false
set_option linter.unusedSimpArgs false
/-!
Model of the names of the commands and of the options every command takes: `-v`, `-q` and `--force-overwrite` (cis/parse.py:15-87, 964-1006,
cis/cis_main.py:227-257, cis/logging.conf). Property C123.

The arguments are modelled by the flags before the name of the command and the flags after it; the arguments of the command itself are in
C29–C33, C61, C81–C85, C111 and C124. argparse is modelled as it is from Python 2.7.9 and 3.4.3 on: a command has a namespace of its own, filled
with its defaults, and every entry of it replaces the entry of the same name (argparse `_SubParsersAction.__call__`).
-/
namespace Cis.GlobalOptions

/-- A flag; `-vv` is two of the first. -/
inductive Flag
  | verbose
  | quiet
  | force
deriving DecidableEq

/-- The entries of a namespace for the options of parse.py:53-62: `-v` counts from None, the others are False by default. -/
structure NS where
  verbose : Option Nat
  quiet : Bool
  force : Bool
deriving DecidableEq

/-- A namespace with the defaults of parse.py:53-62. -/
def NS.start : NS := ⟨none, false, false⟩

/-- A flag is read (parse.py:53-62): `-v` and `-q` exclude each other; `none` is an error of the parser. -/
def NS.read (ns : NS) : Flag → Option NS
  | .verbose => if ns.quiet then none else some { ns with verbose := some (ns.verbose.getD 0 + 1) }
  | .quiet => if ns.verbose.isSome then none else some { ns with quiet := true }
  | .force => some { ns with force := true }

/-- The flags of one parser, in order (parse.py:53-64). -/
def readAll : List Flag → NS → Option NS
  | [], ns => some ns
  | f :: t, ns => match ns.read f with
    | none => none
    | some ns' => readAll t ns'

/-- The commands (parse.py:67-86), each with its other name if it has one. -/
def parsers : List (String × Option String) :=
  [("plot", none), ("info", none), ("collocate", some "col"), ("aggregate", some "agg"), ("subset", some "sub"), ("eval", none), ("stats", none),
   ("collapse", none), ("version", none)]

/-- What may be written for a command: its name or its alias (parse.py:27-38). -/
def accepted (name : String) : Bool := parsers.any (fun p => p.1 == name || p.2 == some name)

/-- The aliases (parse.py:974-976). -/
def aliases : List (String × String) := [("col", "collocate"), ("sub", "subset"), ("agg", "aggregate")]

/-- The name of the command once aliases are replaced (parse.py:992-993). -/
def resolve (name : String) : String := (aliases.lookup name).getD name

/-- The keys of `validators` (parse.py:964-972). -/
def validators : List String := ["plot", "info", "collocate", "aggregate", "collapse", "subset", "eval", "stats", "version"]

/-- The keys of `commands` (cis_main.py:227-235). -/
def commands : List String := ["plot", "info", "collocate", "aggregate", "subset", "collapse", "eval", "stats", "version"]

/-- The namespace of a run (parse.py:64-86, 990): the flags before the command go to the main parser, those after it to the parser of the
command, which starts from its own defaults and replaces the entries of the main one. `version` has none of these options of its own
(parse.py:85). -/
def parse (name : String) (before after : List Flag) : Option NS :=
  if accepted name then
    match readAll before .start with
    | none => none
    | some main =>
      if name = "version" then if after = [] then some main else none
      else readAll after .start
  else none

/-- The level of the handler of the screen after `parse_args` (parse.py:995-1002); `current` is its level before. -/
def screenLevel (ns : NS) (current : Nat) : Nat :=
  if ns.quiet then 40
  else if ns.verbose = some 1 then 20
  else if ns.verbose = some 2 then 10
  else current

/-- Python's levels of messages; and the level of the handler of the screen in cis/logging.conf, WARNING. -/
def debug : Nat := 10
def info : Nat := 20
def warning : Nat := 30
def error : Nat := 40
def configured : Nat := 30

/-- Whether the handler of the screen prints a message (the root logger has no level of its own, cis/logging.conf). -/
def shown (handler message : Nat) : Bool := handler ≤ message

/-! ### Specification -/

/-- What is asked for, wherever the flags are. -/
def Spec.quiet (before after : List Flag) : Prop := Flag.quiet ∈ before ++ after
def Spec.verbosity (before after : List Flag) : Nat := (before ++ after).count Flag.verbose
def Spec.force (before after : List Flag) : Prop := Flag.force ∈ before ++ after

/-- The least message shown, as documented: errors only if quiet; warnings by default; information with `-v`; everything with `-vv` or more. -/
def Spec.least (quiet : Bool) (verbosity : Nat) : Nat :=
  if quiet then error else match verbosity with
    | 0 => warning
    | 1 => info
    | _ => debug

/-! ### The names of the commands -/

/-- **C123**, names: what is accepted is a command or the alias of one, an alias is the same as the command, and every accepted name
leads to a validator and to a command. -/
theorem c123_names (name : String) : (accepted name = true ↔ resolve name ∈ commands) ∧
    (accepted name = true → resolve name ∈ validators ∧ ∃ p ∈ parsers, p.1 = resolve name ∧ (name = p.1 ∨ some name = p.2)) := by
  by_cases h1 : name = "col"
  · subst h1; decide
  by_cases h2 : name = "sub"
  · subst h2; decide
  by_cases h3 : name = "agg"
  · subst h3; decide
  have hr : resolve name = name := by
    have e1 : (name == "col") = false := by simpa using h1
    have e2 : (name == "sub") = false := by simpa using h2
    have e3 : (name == "agg") = false := by simpa using h3
    simp [resolve, aliases, List.lookup, e1, e2, e3]
  rw [hr]
  have hm : accepted name = true ↔ name ∈ commands := by
    have e1 : ¬ "col" = name := fun h => h1 h.symm
    have e2 : ¬ "sub" = name := fun h => h2 h.symm
    have e3 : ¬ "agg" = name := fun h => h3 h.symm
    simp only [accepted, parsers, commands, List.any_cons, List.any_nil, Bool.or_false, Bool.or_eq_true, beq_iff_eq, List.mem_cons,
      List.not_mem_nil, or_false, reduceCtorEq, Option.some.injEq, e1, e2, e3]
    constructor
    · rintro (h | h | h | h | h | h | h | h | h) <;> simp [← h]
    · rintro (h | h | h | h | h | h | h | h | h) <;> simp [h]
  refine ⟨hm, fun h => ?_⟩
  have hc := hm.1 h
  simp only [commands, List.mem_cons, List.not_mem_nil, or_false] at hc
  rcases hc with h | h | h | h | h | h | h | h | h <;> subst h <;> decide

example : accepted "col" = true ∧ resolve "col" = "collocate" ∧ accepted "colocate" = false := by decide

/-! ### Reading flags -/

theorem readAll_some : ∀ (fs : List Flag) (ns : NS), (ns.verbose.isSome = true → ns.quiet = false) → ∀ r, readAll fs ns = some r →
    (r.force = true ↔ ns.force = true ∨ Flag.force ∈ fs) ∧ (r.quiet = true ↔ ns.quiet = true ∨ Flag.quiet ∈ fs) ∧
    r.verbose = (if fs.count Flag.verbose = 0 then ns.verbose else some (ns.verbose.getD 0 + fs.count Flag.verbose))
  | [], ns, _, r, h => by
    simp only [readAll, Option.some.injEq] at h
    subst h
    simp
  | .verbose :: t, ns, hns, r, h => by
    cases hq : ns.quiet with
    | true => simp [readAll, NS.read, hq] at h
    | false =>
      simp only [readAll, NS.read, hq, Bool.false_eq_true, ↓reduceIte] at h
      obtain ⟨a, b, c⟩ := readAll_some t { ns with verbose := some (ns.verbose.getD 0 + 1), quiet := false } (by simp) r
        (by simpa [hq] using h)
      refine ⟨by simpa using a, by simpa [hq] using b, ?_⟩
      rw [c]
      have hc : (Flag.verbose :: t).count Flag.verbose = t.count Flag.verbose + 1 := by simp
      rw [hc]
      simp only [Option.getD_some, Nat.add_eq_zero_iff, one_ne_zero, and_false, ↓reduceIte]
      split_ifs with h0
      · simp [h0]
      · congr 1; omega
  | .quiet :: t, ns, hns, r, h => by
    cases hv : ns.verbose with
    | some n => simp [readAll, NS.read, hv] at h
    | none =>
      simp only [readAll, NS.read, hv, Option.isSome_none, Bool.false_eq_true, ↓reduceIte] at h
      obtain ⟨a, b, c⟩ := readAll_some t { ns with quiet := true } (by simp [hv]) r (by simpa [hv] using h)
      exact ⟨by simpa using a, by simpa using b, by simpa [hv] using c⟩
  | .force :: t, ns, hns, r, h => by
    simp only [readAll, NS.read] at h
    obtain ⟨a, b, c⟩ := readAll_some t { ns with force := true } (by simpa using hns) r h
    exact ⟨by simpa using a, by simpa using b, by simpa using c⟩

theorem readAll_isSome : ∀ (fs : List Flag) (ns : NS), (ns.verbose.isSome = true → ns.quiet = false) →
    ((readAll fs ns).isSome = true ↔
      ¬ ((ns.verbose.isSome = true ∨ Flag.verbose ∈ fs) ∧ (ns.quiet = true ∨ Flag.quiet ∈ fs)))
  | [], ns, hns => by
    have hd : ¬ (ns.verbose.isSome = true ∧ ns.quiet = true) := fun ⟨hv, hq⟩ => by simp [hns hv] at hq
    simpa [readAll] using hd
  | .verbose :: t, ns, hns => by
    cases hq : ns.quiet with
    | true => simp [readAll, NS.read, hq]
    | false =>
      have h := readAll_isSome t { ns with verbose := some (ns.verbose.getD 0 + 1) } (by simp [hq])
      simp only [readAll, NS.read, hq, Bool.false_eq_true, ↓reduceIte]
      rw [hq] at h
      rw [h]
      simp
  | .quiet :: t, ns, hns => by
    cases hv : ns.verbose with
    | some n => simp [readAll, NS.read, hv]
    | none =>
      have h := readAll_isSome t { ns with quiet := true } (by simp [hv])
      simp only [readAll, NS.read, hv, Option.isSome_none, Bool.false_eq_true, ↓reduceIte]
      have e : ({ ns with quiet := true } : NS) = { verbose := none, quiet := true, force := ns.force } := by rw [← hv]
      rw [e] at h
      rw [h]
      simp [hv]
  | .force :: t, ns, hns => by
    have h := readAll_isSome t { ns with force := true } (by simpa using hns)
    simp only [readAll, NS.read]
    rw [h]
    simp

/-! ### C123 -/

/-- **C123**, flags after the command: they are refused exactly if `-v` and `-q` are both there; otherwise overwriting is forced exactly if
asked for, and with no `-v` more than two times the screen shows, from the configured level on, exactly the messages documented. -/
theorem c123_after (name : String) (after : List Flag) (hn : accepted name = true) (hv : name ≠ "version") :
    ((parse name [] after).isSome = true ↔ ¬ (Flag.verbose ∈ after ∧ Flag.quiet ∈ after)) ∧
    ∀ ns, parse name [] after = some ns → (ns.force = true ↔ Spec.force [] after) ∧
      (Spec.verbosity [] after ≤ 2 → ∀ m, shown (screenLevel ns configured) m = true ↔
        Spec.least (decide (Flag.quiet ∈ after)) (Spec.verbosity [] after) ≤ m) := by
  have hp : parse name [] after = readAll after .start := by simp [parse, hn, hv, readAll]
  rw [hp]
  refine ⟨by simpa [NS.start] using readAll_isSome after .start (by simp [NS.start]), fun ns h => ?_⟩
  obtain ⟨a, b, c⟩ := readAll_some after .start (by simp [NS.start]) ns h
  refine ⟨by simpa [NS.start, Spec.force] using a, fun h2 m => ?_⟩
  have hq : ns.quiet = decide (Flag.quiet ∈ after) := by
    rw [Bool.eq_iff_iff]; simpa [NS.start] using b
  simp only [Spec.verbosity, List.nil_append] at h2 ⊢
  simp only [NS.start, Option.getD_none, Nat.zero_add] at c
  unfold shown screenLevel Spec.least
  rw [hq, c]
  by_cases hh : Flag.quiet ∈ after
  · simp [hh, error]
  · generalize after.count Flag.verbose = k at h2 c ⊢
    interval_cases k <;> simp [hh, configured, debug, info, warning]

example : parse "col" [] [.force, .verbose, .verbose] = some ⟨some 2, false, true⟩ ∧ parse "plot" [] [.quiet, .verbose] = none := by decide

/-- **C123**, `version`: the flags before it count, and none are allowed after it. -/
theorem c123_version (before after : List Flag) :
    ((parse "version" before after).isSome = true ↔ after = [] ∧ ¬ (Flag.verbose ∈ before ∧ Flag.quiet ∈ before)) ∧
    ∀ ns, parse "version" before after = some ns → (ns.quiet = true ↔ Flag.quiet ∈ before) := by
  have hs := readAll_isSome before .start (by simp [NS.start])
  have hsome := readAll_some before .start (by simp [NS.start])
  have ha : accepted "version" = true := by decide
  unfold parse
  rw [if_pos ha]
  cases hr : readAll before .start with
  | none =>
    rw [hr] at hs
    simp only [Option.isSome_none, Bool.false_eq_true, NS.start, false_or, false_iff, not_not] at hs
    simp [hs]
  | some ns =>
    rw [hr] at hs
    simp only [Option.isSome_some, NS.start, Option.isSome_none, Bool.false_eq_true, false_or, true_iff] at hs
    by_cases hafter : after = []
    · subst hafter
      refine ⟨by simpa using hs, fun ns' h => ?_⟩
      simp only [↓reduceIte, Option.some.injEq] at h
      subst h
      simpa [NS.start] using (hsome ns hr).2.1
    · simp [hafter]

/-- **C123** is violated by the flags before the command, where the usage message puts them: of any command but `version`, any flags that can be
read at all are without effect there. -/
theorem c123_before_violated (name : String) (before after : List Flag) (hv : name ≠ "version") (h : (readAll before .start).isSome = true) :
    parse name before after = parse name [] after := by
  obtain ⟨ns, hns⟩ := Option.isSome_iff_exists.1 h
  simp [parse, hns, hv, readAll]

/-- The documented `cis --force-overwrite subset …` therefore asks about an existing output, and gives up if the answer is no: for every
output that exists, whatever the inputs. -/
theorem c123_force_before_violated (os : Parse.OS) (output : Str.Str) (inputs : List Str.Str) (ho : ':' ∉ output)
    (he : os.isfile (Parse.withExt os ['.', 'n', 'c'] output) = true) :
    ∃ ns, parse "subset" [.force] [] = some ns ∧ Spec.force [.force] [] ∧
      Parse.validateOutput os ['.', 'n', 'c'] output ns.force [] [] inputs = .waiting ∧
      Parse.validateOutput os ['.', 'n', 'c'] output ns.force [] [['n']] inputs = .noOperation := by
  refine ⟨⟨none, false, false⟩, by decide, by simp [Spec.force], ?_, ?_⟩
  · simp [Parse.validateOutput, Parse.splitOutput, ho, Parse.existsNoOverwrite, he, Parse.prompt]
  · simp [Parse.validateOutput, Parse.splitOutput, ho, Parse.existsNoOverwrite, he, Parse.prompt]

/-- After the command the same flag is heeded: an existing output is overwritten without a question, unless it is one of the inputs. -/
theorem c123_force_after (os : Parse.OS) (output : Str.Str) (env : Str.Str) (answers inputs : List Str.Str) (ho : ':' ∉ output) :
    ∃ ns, parse "subset" [] [.force] = some ns ∧
      Parse.validateOutput os ['.', 'n', 'c'] output ns.force env answers inputs =
        if Parse.matchesInput os (Parse.withExt os ['.', 'n', 'c'] output) inputs then .error
        else .proceed (Parse.withExt os ['.', 'n', 'c'] output) none := by
  refine ⟨⟨none, false, true⟩, by decide, ?_⟩
  simp [Parse.validateOutput, Parse.splitOutput, ho, Parse.existsNoOverwrite]

/-- **C123** is violated by `-v` three times or more: nothing is changed, so information and debugging messages are not shown, though `-v` once
shows the first and twice shows both. -/
theorem c123_very_verbose_violated (name : String) (n : Nat) (hn : accepted name = true) (hv : name ≠ "version") (h3 : 3 ≤ n) :
    ∃ ns, parse name [] (List.replicate n .verbose) = some ns ∧ screenLevel ns configured = configured ∧
      shown (screenLevel ns configured) info = false ∧ Spec.least false n ≤ debug := by
  have hp : parse name [] (List.replicate n Flag.verbose) = readAll (List.replicate n .verbose) .start := by simp [parse, hn, hv, readAll]
  have hs := (readAll_isSome (List.replicate n Flag.verbose) .start (by simp [NS.start])).2 (by
    simp [NS.start, List.mem_replicate])
  obtain ⟨ns, hns⟩ := Option.isSome_iff_exists.1 hs
  obtain ⟨a, b, c⟩ := readAll_some _ .start (by simp [NS.start]) ns hns
  have hq : ns.quiet = false := by
    have hf : ¬ ns.quiet = true := by rw [b]; simp [NS.start, List.mem_replicate]
    simpa using hf
  have hcount : (List.replicate n Flag.verbose).count Flag.verbose = n := by simp
  rw [hcount, if_neg (by omega)] at c
  simp only [NS.start, Option.getD_none, Nat.zero_add] at c
  have hl : screenLevel ns configured = configured := by
    unfold screenLevel
    rw [hq, c, if_neg (by simp), if_neg (by simp; omega), if_neg (by simp; omega)]
  refine ⟨ns, by rw [hp, hns], hl, by rw [hl]; decide, ?_⟩
  obtain ⟨k, rfl⟩ : ∃ k, n = k + 2 := ⟨n - 2, by omega⟩
  simp [Spec.least, debug]

/-- **C123** is violated by the two places together: `cis -q info -v …` is not refused, and is not quiet. -/
theorem c123_exclusive_violated : ∃ ns, parse "info" [.quiet] [.verbose] = some ns ∧ Spec.quiet [.quiet] [.verbose] ∧
    shown (screenLevel ns configured) info = true := ⟨⟨some 1, false, false⟩, by decide, by simp [Spec.quiet], by decide⟩

/-- **C123** is violated for a second command in the same process: without flags the level of the previous command stays, whatever it
was, so warnings are not shown after a quiet one. -/
theorem c123_sticky_violated (current : Nat) : screenLevel NS.start current = current ∧
    (∀ v, shown (screenLevel NS.start (screenLevel ⟨v, true, false⟩ current)) warning = false) := by
  refine ⟨by simp [screenLevel, NS.start], fun v => ?_⟩
  simp [screenLevel, NS.start, shown, warning]

end Cis.GlobalOptions
