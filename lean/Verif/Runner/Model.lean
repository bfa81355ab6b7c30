/-!
# The script that runs the tests

`test/run_tests`. A line is the list of its characters and the output of a command the list of its lines, without empty lines at the end, as `$(…)` and
backquotes remove them. The commands themselves (compiler, tests, `diff`) are outside: what they give is part of the data of a test. Names are taken as
fixed text where `grep` takes them as patterns. Not modelled: what is shown on the terminal when tests are named on the command line, and files that cannot
be written.
-/

namespace Verif.Runner

abbrev Line := List Char
abbrev Text := List Line

/-- `PASS_LABEL`, `FAIL_LABEL`, `EXPECTED_FAIL_LABEL`, `MISSING_REFERENCE_LABEL` (56-59). -/
def passLabel : Line := ['P', 'a', 's', 's']
def failLabel : Line := ['F', 'A', 'I', 'L']
def expectedFailLabel : Line := ['F', 'A', 'I', 'L', ' ', '(', 'E', 'x', 'p', 'e', 'c', 't', 'e', 'd', ')']
def missingLabel : Line :=
    ['N', 'O', 'T', ' ', 'R', 'U', 'N', ' ', '(', 'R', 'e', 'f', 'e', 'r', 'e', 'n', 'c', 'e', ' ', 'o', 'u', 't', 'p', 'u', 't',
     ' ', 'm', 'i', 's', 's', 'i', 'n', 'g', ')']

/-- What the commands run for a test give. -/
inductive Kind
  /-- compiler successful and its messages (125-126), test successful (136-137), what it printed -/
  | ordinary (compiled : Bool) (messages : Text) (ran : Bool) (printed : Text)
  /-- lines of the compiler with the required error (100), success of compiling and running the cleaned test and what it printed (112-113) -/
  | mustFail (found : Nat) (cleaned : Bool) (said : Text)

structure Test where
  /-- `NAME` (85) -/
  name : Line
  /-- the file `REF_OUTPUT` (87, 89), if it exists -/
  reference : Option Text
  kind : Kind

/-- What is written behind the name. -/
inductive Verdict
  | pass | noError | notCleaned | notCompiled | notRan | differs | notRun | excused
  deriving DecidableEq, Repr

/-- The labels with the reasons (103, 115, 120, 129, 142, 149, 154, 160, 169). -/
def label : Verdict → Line
  | .pass => passLabel
  | .noError => failLabel ++
    [' ', '(', 'c', 'o', 'm', 'p', 'i', 'l', 'a', 't', 'i', 'o', 'n', ' ', 'd', 'i', 'd', ' ', 'n', 'o', 't', ' ', 'p', 'r', 'o',
     'd', 'u', 'c', 'e', ' ', 'r', 'e', 'q', 'u', 'i', 'r', 'e', 'd', ' ', 'e', 'r', 'r', 'o', 'r', ')']
  | .notCleaned => failLabel ++
    [' ', '(', 'f', 'a', 'i', 'l', 'e', 'd', ' ', 't', 'o', ' ', 'c', 'o', 'm', 'p', 'i', 'l', 'e', ' ', 'o', 'r', ' ', 'r', 'u',
     'n', ' ', 'a', 'f', 't', 'e', 'r', ' ', 'c', 'l', 'e', 'a', 'n', 'i', 'n', 'g', ')']
  | .notCompiled => failLabel ++ [' ', '(', 'f', 'a', 'i', 'l', 'e', 'd', ' ', 't', 'o', ' ', 'c', 'o', 'm', 'p', 'i', 'l', 'e', ')']
  | .notRan => failLabel ++ [' ', '(', 'f', 'a', 'i', 'l', 'e', 'd', ' ', 't', 'o', ' ', 'r', 'u', 'n', ')']
  | .differs => failLabel
  | .notRun => missingLabel
  | .excused => expectedFailLabel

/-- `REPORT_ENTRY`: the name, padded (86), and the label. -/
def entry (width : Nat) (name : Line) (v : Verdict) : Line :=
  name ++ List.replicate (width - name.length) ' ' ++ ' ' :: ':' :: ' ' :: label v

/-- `grep` with a text without special characters. -/
def grep (pat : Line) (l : Line) : Bool := decide (pat <:+: l)

/-- Lines 89-161: the verdict and the new value of `RESULT`, if it gets one. `diff ref out` is what `diff -u` prints. -/
def judge (diff : Text → Text → Text) (t : Test) : Verdict × Option Text :=
  match t.reference with
  | none => (.notRun, none)
  | some ref =>
    match t.kind with
    | .mustFail found cleaned said =>
      if found = 0 then (.noError, some [['0']])
      else if cleaned then (.pass, some said)
      else (.notCleaned, some said)
    | .ordinary compiled messages ran printed =>
      if !compiled then (.notCompiled, some messages)
      else if !ran then (.notRan, some (diff ref printed))
      else if diff ref printed ≠ [] then (.differs, some (diff ref printed))
      else (.pass, some [])

/-- The report file and the variable `RESULT`. -/
structure State where
  report : Text
  result : Text

/-- `EXPECTED` (164-166); `none` if there is no file of expected failures. -/
def isExpected (expected : Option Text) (name : Line) : Bool :=
  match expected with
  | none => false
  | some lines => lines.any (grep name)

/-- One turn of the loop over the tests (84-177). -/
def step (diff : Text → Text → Text) (expected : Option Text) (width : Nat) (s : State) (t : Test) : State :=
  let j := judge diff t
  let result := j.2.getD s.result
  let known := isExpected expected t.name
  let failed := grep failLabel (entry width t.name j.1)
  let v := if known && failed then .excused else j.1
  { report := s.report ++ entry width t.name v :: (if result ≠ [] ∧ known = false then result else [])
    result := result }

/-- `LONGEST_NAME_LEN` (74). -/
def longest (tests : List Test) : Nat := tests.foldl (fun w t => if t.name.length > w then t.name.length else w) 0

/-- The report when the loop is done; it begins empty (71), and `RESULT` is not set before. -/
def run (diff : Text → Text → Text) (expected : Option Text) (tests : List Test) : Text :=
  (tests.foldl (step diff expected (longest tests)) ⟨[], []⟩).report

/-- The numbers of the last line (180-184). -/
structure Statistics where
  tests : Nat
  pass : Nat
  fail : Nat
  expectedFail : Nat
  notRun : Nat
  deriving DecidableEq, Repr

/-- Lines with a label behind a colon. -/
def count (report : Text) (lab : Line) : Nat := report.countP (grep (':' :: ' ' :: lab))

/-- Lines 180-184; `echo` prints a line also if there are no tests. -/
def statistics (report : Text) (tests : List Test) : Statistics :=
  { tests := if tests.length = 0 then 1 else tests.length
    pass := count report passLabel
    fail := count report failLabel
    expectedFail := count report expectedFailLabel
    notRun := count report missingLabel }

/-- The exit status: that of the last command, `tee`, which succeeds if the report can be written (206). -/
def exitStatus (_ : Statistics) : Nat := 0

end Verif.Runner
