import Verif.Controller

/-!
# The command line

`main.rs:17-35` declares the options and `Arguments::parse` (`main.rs:113`) reads them.  The reading is done by `clap`
4.5.3, whose source is not part of the repository; the functions here follow its documented behaviour for this
declaration: two flags of its own (`-h`, `-V`), no subcommands, no abbreviated names.  Words are text; words that are not
UTF-8 are not modelled.  `clap` looks at the value of an option when the next option or the end comes; here it is looked
at immediately, which makes a difference only for which of several errors is reported.
-/

namespace Reqtrace

namespace Cli

/-- `main.rs:23-30`: the options that have a value -/
inductive Opt where
  /-- `log_level: Option<String>` -/
  | logLevel
  /-- `config_file: PathBuf` -/
  | config
  /-- `base_dir: PathBuf` -/
  | base
  deriving DecidableEq, Repr

/-- What stands behind a dash: a flag or an option with a value. -/
inductive Key where
  | quiet
  | help
  | version
  | opt (o : Opt)
  deriving DecidableEq, Repr

/-- `main.rs:20-30` `#[arg(short, …)]`: the first letter of the field -/
def shortKey : Char → Option Key
  | 'q' => some .quiet
  | 'l' => some (.opt .logLevel)
  | 'c' => some (.opt .config)
  | 'b' => some (.opt .base)
  | 'h' => some .help
  | 'V' => some .version
  | _ => none

/-- `main.rs:20-30` `#[arg(…, long)]`: the name of the field, with `-` for `_`, or the given name -/
def longKey (name : Str) : Option Key :=
  if name = c!"quiet" then some .quiet
  else if name = c!"log-level" then some (.opt .logLevel)
  else if name = c!"config" then some (.opt .config)
  else if name = c!"base" then some (.opt .base)
  else if name = c!"help" then some .help
  else if name = c!"version" then some .version
  else none

/-- The words read so far. -/
structure Seen where
  quiet : Bool
  logLevel : Option Str
  config : Option Str
  base : Option Str
  jobs : List Str
  deriving DecidableEq, Repr

def Seen.empty : Seen := ⟨false, none, none, none, []⟩

/-- The result of reading the command line: run with these arguments, show the help (the long one) or the version and
exit, or complain. -/
inductive Parsed where
  | run (s : Seen)
  | help (long : Bool)
  | version
  | usage
  deriving DecidableEq, Repr

/-- `ArgAction::SetTrue`: at most once -/
def setQuiet (s : Seen) : Option Seen := if s.quiet then none else some { s with quiet := true }

/-- `ArgAction::Set`: at most once; `PathBufValueParser` rejects the empty path, `StringValueParser` rejects nothing -/
def setOpt (s : Seen) : Opt → Str → Option Seen
  | .logLevel, v => if s.logLevel.isSome then none else some { s with logLevel := some v }
  | .config, v => if s.config.isSome || v.isEmpty then none else some { s with config := some v }
  | .base, v => if s.base.isSome || v.isEmpty then none else some { s with base := some v }

/-- The value directly behind a letter: `-cfile` or `-c=file` -/
def attached : Str → Str
  | '=' :: v => v
  | v => v

/-- The letters of a word with one dash, one after the other; the result is the end of the reading or the words so far and
the option that still needs a value. -/
def readShorts (s : Seen) : Str → Parsed ⊕ (Seen × Option Opt)
  | [] => .inr (s, none)
  | c :: rest =>
    match shortKey c with
    | none => .inl .usage
    | some .help => .inl (.help false)
    | some .version => .inl .version
    | some .quiet => match setQuiet s with
      | none => .inl .usage
      | some s => readShorts s rest
    | some (.opt o) =>
      if rest = [] then .inr (s, some o)
      else match setOpt s o (attached rest) with
        | none => .inl .usage
        | some s => .inr (s, none)

/-- `name=value` or `name` -/
def splitEq : Str → Str × Option Str
  | [] => ([], none)
  | c :: t => if c = '=' then ([], some t) else ((c :: (splitEq t).1), (splitEq t).2)

/-- A word with two dashes, without them -/
def readLong (s : Seen) (w : Str) : Parsed ⊕ (Seen × Option Opt) :=
  match longKey (splitEq w).1, (splitEq w).2 with
  | some .quiet, none => match setQuiet s with
    | none => .inl .usage
    | some s => .inr (s, none)
  | some .help, none => .inl (.help true)
  | some .version, none => .inl .version
  | some (.opt o), none => .inr (s, some o)
  | some (.opt o), some v => match setOpt s o v with
    | none => .inl .usage
    | some s => .inr (s, none)
  | _, _ => .inl .usage

/-- The word is an option, flag or `--`; a single dash is not. -/
def dashed : Str → Bool
  | '-' :: _ :: _ => true
  | _ => false

/-- The words one after the other; `o` is the option that needs the next word as its value. -/
def read (s : Seen) : Option Opt → List Str → Parsed
  | none, [] => .run s
  | some _, [] => .usage
  | some o, w :: ws =>
    if dashed w then .usage
    else match setOpt s o w with
      | none => .usage
      | some s => read s none ws
  | none, w :: ws =>
    match w with
    | ['-', '-'] => .run { s with jobs := s.jobs ++ ws }
    | '-' :: '-' :: l => match readLong s l with
      | .inl p => p
      | .inr (s, o) => read s o ws
    | '-' :: c :: t => match readShorts s (c :: t) with
      | .inl p => p
      | .inr (s, o) => read s o ws
    | w => read { s with jobs := s.jobs ++ [w] } none ws

/-- `Arguments::parse` without its effects -/
def parse (words : List Str) : Parsed := read .empty none words

/-- `main.rs:26-30`: the defaults; `quiet` and `log_level` only concern logging -/
def Seen.arguments (s : Seen) : Arguments := ⟨s.config.getD c!"requirements.toml", s.base.getD c!".", s.jobs⟩

/-- The texts that `clap` shows. -/
structure Texts where
  help : Bool → Str
  version : Str
  usage : List Str → Str

/-- `main.rs:112-138` with `Arguments::parse` (`main.rs:113`): help and version go to standard output, exit code 0;
complaints go to standard error, exit code 2.  That writing of these texts fails is not modelled. -/
def program (env : Env) (texts : Texts) (words : List Str) (w : World) : Nat × World :=
  match parse words with
  | .run s => Main.main env s.arguments w
  | .help long => (0, { w with stdout := w.stdout ++ Utf8.encode (texts.help long) })
  | .version => (0, { w with stdout := w.stdout ++ Utf8.encode texts.version })
  | .usage => (2, { w with stderr := w.stderr ++ Utf8.encode (texts.usage words) })

end Cli

end Reqtrace
