import Verif.Cli
import Verif.Spec.Run

/-!
# What a command line means
-/

namespace Reqtrace.Spec.CliText

open Cli (Opt Seen)

/-- One thing that a command line says. -/
inductive Item where
  | quiet
  | value (o : Opt) (v : Str)
  | job (name : Str)
  deriving DecidableEq

def letter : Opt → Char
  | .logLevel => 'l'
  | .config => 'c'
  | .base => 'b'

def name : Opt → Str
  | .logLevel => c!"log-level"
  | .config => c!"config"
  | .base => c!"base"

/-- A word that does not start with a dash, or is nothing but one. -/
def PlainWord (w : Str) : Prop := w = c!"-" ∨ ∀ t, w ≠ '-' :: t

/-- Letters behind one dash: the flag any number of times, then perhaps an option with its value, or without. -/
inductive Letters : Str → List Item → Option Opt → Prop
  | nil : Letters [] [] none
  | quiet {t is p} : Letters t is p → Letters ('q' :: t) (.quiet :: is) p
  | value (o) {v} : v ≠ [] → v.head? ≠ some '=' → Letters (letter o :: v) [.value o v] none
  | equals (o v) : Letters (letter o :: '=' :: v) [.value o v] none
  | waiting (o) : Letters [letter o] [] (some o)

/-- Words without `--`. -/
inductive Words : List Str → List Item → Prop
  | nil : Words [] []
  | job {w ws is} : PlainWord w → Words ws is → Words (w :: ws) (.job w :: is)
  | quiet {ws is} : Words ws is → Words (c!"--quiet" :: ws) (.quiet :: is)
  | equals (o v) {ws is} : Words ws is → Words ((c!"--" ++ name o ++ c!"=" ++ v) :: ws) (.value o v :: is)
  | value (o) {v ws is} : PlainWord v → Words ws is → Words ((c!"--" ++ name o) :: v :: ws) (.value o v :: is)
  | letters {t as ws is} : t ≠ [] → Letters t as none → Words ws is → Words (('-' :: t) :: ws) (as ++ is)
  | lettersValue {t as o v ws is} : Letters t as (some o) → PlainWord v → Words ws is →
      Words (('-' :: t) :: v :: ws) (as ++ .value o v :: is)

/-- All words: behind `--` there are only jobs. -/
inductive CommandLine : List Str → List Item → Prop
  | all {ws is} : Words ws is → CommandLine ws is
  | rest {ws is js} : Words ws is → CommandLine (ws ++ c!"--" :: js) (is ++ js.map .job)

/-- The values given for an option. -/
def valuesOf (o : Opt) (is : List Item) : List Str :=
  is.filterMap fun i => match i with
    | .value p v => if p = o then some v else none
    | _ => none

def jobsOf (is : List Item) : List Str :=
  is.filterMap fun i => match i with
    | .job n => some n
    | _ => none

/-- The flag and the options are given at most once, and no path is empty. -/
structure Consistent (is : List Item) : Prop where
  quiet : is.count .quiet ≤ 1
  once : ∀ o, (valuesOf o is).length ≤ 1
  paths : ∀ v, .value .config v ∈ is ∨ .value .base v ∈ is → v ≠ []

/-- What the items say altogether. -/
structure Says (is : List Item) (s : Seen) : Prop where
  quiet : s.quiet = true ↔ .quiet ∈ is
  logLevel : s.logLevel = (valuesOf .logLevel is).head?
  config : s.config = (valuesOf .config is).head?
  base : s.base = (valuesOf .base is).head?
  jobs : s.jobs = jobsOf is

/-- The words start with consistent ones, then comes one that asks for the help (the long one) or the version. -/
inductive AsksHelp : List Str → Bool → Prop
  | long {ws is} (rest) : Words ws is → Consistent is → AsksHelp (ws ++ c!"--help" :: rest) true
  | short {ws is} (n more rest) : Words ws is → Consistent (is ++ List.replicate n .quiet) →
      AsksHelp (ws ++ ('-' :: (List.replicate n 'q' ++ 'h' :: more)) :: rest) false

inductive AsksVersion : List Str → Prop
  | long {ws is} (rest) : Words ws is → Consistent is → AsksVersion (ws ++ c!"--version" :: rest)
  | short {ws is} (n more rest) : Words ws is → Consistent (is ++ List.replicate n .quiet) →
      AsksVersion (ws ++ ('-' :: (List.replicate n 'q' ++ 'V' :: more)) :: rest)

/-- The arguments that the items stand for. -/
structure Means (is : List Item) (opt : Arguments) : Prop where
  config : opt.configFile = (valuesOf .config is).headD c!"requirements.toml"
  base : opt.baseDir = (valuesOf .base is).headD c!"."
  jobs : opt.jobs = jobsOf is

/-- What happens between the start with these words and the exit. -/
inductive CommandEnds (env : Env) (texts : Cli.Texts) (words : List Str) (w : World) : Nat → World → Prop
  | run {is opt code w'} : CommandLine words is → Consistent is → Means is opt → ProgramEnds env opt w code w' →
      CommandEnds env texts words w code w'
  | help {long} : AsksHelp words long →
      CommandEnds env texts words w 0 { w with stdout := w.stdout ++ Utf8.encode (texts.help long) }
  | version : AsksVersion words →
      CommandEnds env texts words w 0 { w with stdout := w.stdout ++ Utf8.encode texts.version }
  | usage : (∀ is, CommandLine words is → ¬ Consistent is) → (∀ long, ¬ AsksHelp words long) → ¬ AsksVersion words →
      CommandEnds env texts words w 2 { w with stderr := w.stderr ++ Utf8.encode (texts.usage words) }

end Reqtrace.Spec.CliText
