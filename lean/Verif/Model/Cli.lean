/-!
# `src/option.rs`: the command line

Strings are lists of characters (Rust `String`s are valid UTF-8); byte slices such as `&arg[0..1]` panic unless the
first character takes one byte.  Error texts are dropped.  On an error the program stops, so the partially updated
configuration is dropped as well.
-/

namespace Av1.Cli

abbrev Str := List Char

/-- Outcome of a parser: a value, a reported error, a panic, or process exit (help). -/
inductive Res (α : Type) where
  | ok (a : α)
  | err
  | panic
  | exit
deriving Repr, DecidableEq

def Res.bind {α β : Type} : Res α → (α → Res β) → Res β
  | .ok a, f => f a
  | .err, _ => .err
  | .panic, _ => .panic
  | .exit, _ => .exit

/-- `struct Config` (option.rs 7–14); the frame rate is a reduced fraction. -/
structure Config where
  input : Option Str := none
  output : Option Str := none
  width : Option Nat := none
  height : Option Nat := none
  framerate : Option (Nat × Nat) := none
  frames : Option Nat := none
deriving Repr, DecidableEq

/-- `arg.split(sep).collect()` (38). -/
def split (sep : Char) : Str → List Str
  | [] => [[]]
  | c :: cs =>
    if c = sep then [] :: split sep cs
    else match split sep cs with
      | [] => [[c]]
      | p :: ps => (c :: p) :: ps

/-- Digits of `usize::from_str`; `none` = invalid digit or overflow of 64 bits. -/
def digits (acc : Nat) : Str → Option Nat
  | [] => some acc
  | c :: cs =>
    if '0'.toNat ≤ c.toNat ∧ c.toNat ≤ '9'.toNat then
      let v := acc * 10 + (c.toNat - '0'.toNat)
      if v < 2 ^ 64 then digits v cs else none
    else none

/-- `usize::from_str` (standard library): optional `+`, at least one decimal digit. -/
def parseUsize : Str → Option Nat
  | [] => none
  | ['+'] => none
  | '+' :: cs => digits 0 cs
  | cs => digits 0 cs

/-- `parse_tuple::<usize>` (37–47) for one and two targets. -/
def parseTuple1 (arg : Str) (sep : Char) : Option Nat :=
  match split sep arg with
  | [a] => parseUsize a
  | _ => none

def parseTuple2 (arg : Str) (sep : Char) : Option (Nat × Nat) :=
  match split sep arg with
  | [a, b] => do
    let x ← parseUsize a
    let y ← parseUsize b
    some (x, y)
  | _ => none

/-- `Ratio::new` of the `num` crate: panics on a zero denominator, otherwise reduces. -/
def ratioNew (n d : Nat) : Res (Nat × Nat) :=
  if d = 0 then .panic else .ok (n / Nat.gcd n d, d / Nat.gcd n d)

/-- The entries of `OPTIONS` (84–169). -/
inductive Opt where
  | help | input | output | frames | size | framerate
deriving Repr, DecidableEq

def Opt.all : List Opt := [.help, .input, .output, .frames, .size, .framerate]

def Opt.name : Opt → Str
  | .help => ['h', 'e', 'l', 'p'] | .input => ['i', 'n', 'p', 'u', 't'] | .output => ['o', 'u', 't', 'p', 'u', 't']
  | .frames => ['f', 'r', 'a', 'm', 'e', 's'] | .size => ['s', 'i', 'z', 'e']
  | .framerate => ['f', 'r', 'a', 'm', 'e', 'r', 'a', 't', 'e']

def Opt.short : Opt → Str
  | .help => ['h'] | .input => ['i'] | .output => ['o'] | .frames => ['f', 'r'] | .size => ['s'] | .framerate => ['r']

/-- The `parser` fields (85–169, macros 49–67): remaining arguments and new configuration. -/
def Opt.parser (o : Opt) (args : List Str) (cfg : Config) : Res (List Str × Config) :=
  match o with
  | .help => .exit
  | .input => match args with
    | [] => .err
    | a :: rest => .ok (rest, { cfg with input := some a })
  | .output => match args with
    | [] => .err
    | a :: rest => .ok (rest, { cfg with output := some a })
  | .frames => match args with
    | [] => .err
    | a :: rest => match parseTuple1 a ' ' with
      | none => .err
      | some n => .ok (rest, { cfg with frames := some n })
  | .size => match args with
    | [] => .err
    | a :: rest => match parseTuple2 a 'x' with
      | none => .err
      | some (w, h) => .ok (rest, { cfg with width := some w, height := some h })
  | .framerate => match args with
    | [] => .err
    | a :: rest => match parseUsize a with
      | some n => (ratioNew n 1).bind fun r => .ok (rest, { cfg with framerate := some r })
      | none => match parseTuple2 a '/' with
        | none => .err
        | some (n, d) => (ratioNew n d).bind fun r => .ok ([], { cfg with framerate := some r })

/-- `default` fields (85–169). -/
def Opt.default : Opt → Option Str
  | .frames => some ['4', '2', '9', '4', '9', '6', '7', '2', '9', '5']
  | .framerate => some ['3', '0', '/', '1']
  | _ => none

/-- `validator` fields. -/
def Opt.valid (cfg : Config) : Opt → Bool
  | .help => true
  | .input => cfg.input.isSome
  | .output => cfg.output.isSome
  | .frames => cfg.frames.isSome
  | .size => match cfg.width, cfg.height with
    | some w, some h => decide (w > 0 ∧ w < 8192 ∧ h > 0 ∧ h < 8192)
    | _, _ => false
  | .framerate => match cfg.framerate with
    | some (n, d) => decide (n > 0 ∧ d > 0)
    | none => false

/-- `set_option_by_name` (172–185). -/
def setByName (name : Str) (args : List Str) (cfg : Config) : Res (List Str × Config) :=
  match Opt.all.find? (fun o => o.name == name) with
  | some o => o.parser args cfg
  | none => .err

/-- `set_option_by_short_name` (187–200). -/
def setByShort (name : Str) (args : List Str) (cfg : Config) : Res (List Str × Config) :=
  match Opt.all.find? (fun o => o.short == name) with
  | some o => o.parser args cfg
  | none => .err

/-- `init_config` (202–208): a default that does not parse is an assertion failure. -/
def initConfig : Res Config :=
  Opt.all.foldl (fun acc o => acc.bind fun cfg =>
    match o.default with
    | none => .ok cfg
    | some d => match o.parser [d] cfg with
      | .ok (_, cfg') => .ok cfg'
      | .err => .panic
      | .panic => .panic
      | .exit => .exit) (.ok {})

/-- `validate_config` (210–215). -/
def validate (cfg : Config) : Bool := Opt.all.all (Opt.valid cfg)

/-- One round of `parse` (225–242) on the first argument. -/
def parseOne (arg : Str) (rest : List Str) (cfg : Config) : Res (List Str × Config) :=
  match arg with
  | [] => .panic                                    -- `&arg[0..1]`
  | c :: cs =>
    if c.utf8Size ≠ 1 then .panic                   -- `&arg[0..1]` inside a character
    else if c = '-' then
      match cs with
      | [] => .panic                                -- `&arg[1..2]`
      | d :: ds =>
        if d.utf8Size ≠ 1 then .panic
        else if d = '-' then setByName ds rest cfg
        else setByShort (d :: ds) rest cfg
    else .err

/-- `parse` (225–242).  The recursion consumes at least one argument per round; fuel `args.length` is enough
(`parseFuel_enough`). -/
def parseFuel : Nat → List Str → Config → Res Config
  | _, [], cfg => .ok cfg
  | 0, _ :: _, _ => .err
  | fuel + 1, arg :: rest, cfg =>
    (parseOne arg rest cfg).bind fun (rest', cfg') => parseFuel fuel rest' cfg'

def parse (args : List Str) (cfg : Config) : Res Config := parseFuel args.length args cfg

/-- The option handling of `main` (main.rs 52–66). -/
def readConfig (args : List Str) : Res Config :=
  initConfig.bind fun cfg => (parse args cfg).bind fun cfg =>
    if validate cfg then .ok cfg else .err

end Av1.Cli
