import Verif.Model.ToolJson
import Verif.Model.Edit
import Verif.Model.Divide

/-!
# cmd/mp4tool/main.go and the functions `Main` of the commands

What a run of `mp4tool` does: the exit status, what is written to standard output, and the files it creates.  The arguments are byte strings.  Package
`flag` of the standard library is written out as far as it is used (`FlagSet.Parse` with `ExitOnError`, and `strconv.ParseBool` and `strconv.ParseUint` for
the values).  Not represented: standard error, and what `mp4tool divide` does to an input file that lies in its output directory.
-/

namespace Mp4.Cmd

open Mp4 Mp4.Tool

/-- the bytes of an ASCII string -/
def word (s : String) : Bytes := s.toList.map fun c => BitVec.ofNat 8 c.toNat

/-! ## Package `flag` -/

/-- The kind of an option: `Bool`, `String`, `Uint64Var`. -/
inductive OptKind where
  | switch
  | text
  | number
  deriving DecidableEq, Repr

/-- the value of an option -/
inductive OptValue where
  | switch (b : Bool)
  | text (s : Bytes)
  | number (n : Nat)
  deriving DecidableEq, Repr

/-- What `FlagSet.Parse` does: options in the order in which they are set and the remaining arguments; `-h` or `-help`; an error. -/
inductive Parsed where
  | ok (values : List (Bytes × OptValue)) (rest : List Bytes)
  | help
  | bad
  deriving DecidableEq, Repr

/-- one option more in front -/
def Parsed.cons (x : Bytes × OptValue) : Parsed → Parsed
  | .ok l rest => .ok (x :: l) rest
  | p => p

/-- an argument as `parseOne` sees it: no option (the rest are arguments), the end of the options, an option with or without a value, a mistake -/
inductive Seen where
  | operand
  | stop
  | option (name : Bytes) (value : Option Bytes)
  | bad
  deriving DecidableEq, Repr

/-- `name[i] == '='` with the smallest `i` of at least 1: the name, and the value behind the sign -/
def cutValue : Bytes → Bytes × Option Bytes
  | [] => ([], none)
  | x :: l => if x = 0x3d then ([], some l) else let r := cutValue l; (x :: r.1, r.2)

/-- the name and the value: `parseOne` behind the dashes -/
def nameValue : Bytes → Seen
  | [] => .bad
  | x :: l => if x = 0x2d ∨ x = 0x3d then .bad else let r := cutValue l; .option (x :: r.1) r.2

/-- `parseOne`, before the name is looked up -/
def seen : Bytes → Seen
  | [] => .operand
  | [_] => .operand
  | x :: y :: l => if x ≠ 0x2d then .operand else if y = 0x2d then (if l = [] then .stop else nameValue l) else nameValue (y :: l)

/-- `strconv.ParseBool` -/
def parseBool (s : Bytes) : Option Bool :=
  if s ∈ ["1", "t", "T", "TRUE", "true", "True"].map word then some true
  else if s ∈ ["0", "f", "F", "FALSE", "false", "False"].map word then some false
  else none

/-- `lower` of package `strconv`: the bit of small letters is set -/
def lower (c : BitVec 8) : BitVec 8 := c ||| 0x20

/-- the value of a digit -/
def digitOf (c : BitVec 8) : Option Nat :=
  if 48 ≤ c.toNat ∧ c.toNat ≤ 57 then some (c.toNat - 48)
  else if 97 ≤ (lower c).toNat ∧ (lower c).toNat ≤ 122 then some ((lower c).toNat - 97 + 10)
  else none

/-- the loop of `ParseUint` with base 0; `none` for a mistake and for numbers from 2^64 on -/
def digits (base : Nat) : Nat → Bytes → Option Nat
  | n, [] => some n
  | n, c :: l =>
    if c = 0x5f then digits base n l
    else match digitOf c with
      | none => none
      | some d => if base ≤ d then none else if 2 ^ 64 ≤ n * base + d then none else digits base (n * base + d) l

/-- the loop of `underscoreOK`; `prev`: 0 at the beginning or behind something else, 1 behind a digit, 2 behind an underscore -/
def underscores (hex : Bool) : Nat → Bytes → Bool
  | prev, [] => prev != 2
  | prev, c :: l =>
    if (48 ≤ c.toNat ∧ c.toNat ≤ 57) ∨ (hex ∧ 97 ≤ (lower c).toNat ∧ (lower c).toNat ≤ 102) then underscores hex 1 l
    else if c = 0x5f then prev == 1 && underscores hex 2 l
    else prev != 2 && underscores hex 0 l

/-- the base and the digits behind its prefix, `ParseUint` with base 0 -/
def basePrefix : Bytes → Nat × Bytes
  | 0x30#8 :: x :: y :: l =>
    if lower x = 0x62 then (2, y :: l) else if lower x = 0x6f then (8, y :: l) else if lower x = 0x78 then (16, y :: l) else (8, x :: y :: l)
  | 0x30#8 :: l => (8, l)
  | s => (10, s)

/-- `underscoreOK` (the texts have no sign: `digits` fails on signs) -/
def underscoreOK : Bytes → Bool
  | 0x30#8 :: x :: l =>
    if lower x = 0x62 ∨ lower x = 0x6f ∨ lower x = 0x78 then underscores (lower x = 0x78) 1 l else underscores false 0 (0x30 :: x :: l)
  | s => underscores false 0 s

/-- `strconv.ParseUint(s, 0, 64)` -/
def parseUint (s : Bytes) : Option Nat :=
  if s = [] then none
  else match digits (basePrefix s).1 0 (basePrefix s).2 with
    | none => none
    | some n => if s.contains 0x5f && !underscoreOK s then none else some n

/-- `Value.Set` -/
def setValue : OptKind → Bytes → Option OptValue
  | .switch, s => (parseBool s).map .switch
  | .text, s => some (.text s)
  | .number, s => (parseUint s).map .number

/-- an option with its value: the rest is read if the value can be set -/
def withValue (name : Bytes) (v : Option OptValue) (rest : Parsed) : Parsed :=
  match v with
  | none => .bad
  | some v => rest.cons (name, v)

/-- an option that is declared -/
def kindOf (decl : List (Bytes × OptKind)) (name : Bytes) : Option OptKind := (decl.find? fun x => x.1 == name).map (·.2)

/-- `FlagSet.Parse` -/
def parse (decl : List (Bytes × OptKind)) : List Bytes → Parsed
  | [] => .ok [] []
  | s :: args =>
    match seen s with
    | .operand => .ok [] (s :: args)
    | .stop => .ok [] args
    | .bad => .bad
    | .option name value =>
      match kindOf decl name, value with
      | none, _ => if name = word "help" ∨ name = word "h" then .help else .bad
      | some .switch, none => (parse decl args).cons (name, .switch true)
      | some k, some t => withValue name (setValue k t) (parse decl args)
      | some k, none =>
        match args with
        | [] => .bad
        | t :: rest => withValue name (setValue k t) (parse decl rest)

/-- the value of an option: the last one set, or the default -/
def valueOf (l : List (Bytes × OptValue)) (name : String) (default : OptValue) : OptValue :=
  ((l.reverse.find? fun x => x.1 == word name).map (·.2)).getD default

/-- `*bool` -/
def switchOf (l : List (Bytes × OptValue)) (name : String) : Bool :=
  match valueOf l name (.switch false) with
  | .switch b => b
  | _ => false

/-- `*string` -/
def textOf (l : List (Bytes × OptValue)) (name : String) (default : Bytes) : Bytes :=
  match valueOf l name (.text default) with
  | .text s => s
  | _ => default

/-- `*uint64`, if set -/
def numberOf (l : List (Bytes × OptValue)) (name : String) : Option Nat :=
  match valueOf l name (.switch false) with
  | .number n => some n
  | _ => none

/-! ## A run -/

/-- What a run depends on besides its arguments. -/
structure World where
  /-- the contents of the files that can be opened -/
  file : Bytes → Option Bytes
  /-- can a file be created under this path? for `divide`: can directories and files be created in this directory? -/
  creates : Bytes → Bool
  /-- do two paths lead to the same file? -/
  same : Bytes → Bytes → Bool
  /-- the faults of the disk when a file is written -/
  faults : Faults
  /-- the terminal: dump.go:23-29 -/
  width : Nat
  /-- see `DumpCfg` -/
  beyond : Nat → Bool
  /-- see `jsonByte` -/
  short : Bool
  /-- see `Report.json` -/
  secs : Nat → Nat → Str.Text
  /-- the report as YAML -/
  yaml : Report → Str.Text
  /-- the texts of errors -/
  say : Err → Str.Text
  /-- bound for the number of steps -/
  fuel : Nat

/-- how a run ends -/
inductive Ended where
  | exit (status : Nat)
  | panic
  | hang
  deriving DecidableEq, Repr

/-- the files a run has created -/
inductive Effect where
  | none
  | wrote (path contents : Bytes)
  | divided (dir : Bytes) (tracks : List DTrack) (files : DivSt)

/-- a run: how it ends, what it has written to standard output, and the files it has created -/
structure Run where
  ended : Ended
  out : Str.Text
  effect : Effect

/-- `printUsage` or `flagSet.Usage`: nothing on standard output -/
def usage (status : Nat) : Run := ⟨.exit status, [], .none⟩

/-- `fmt.Println("Error:", err); return 1`, or `return 0` -/
def done (w : World) (o : Out Unit) (out : Str.Text) (effect : Effect) : Run :=
  match o with
  | .ok _ => ⟨.exit 0, out, effect⟩
  | .err e => ⟨.exit 1, out ++ Str.lit "Error: " ++ w.say e ++ [10], effect⟩
  | .panic => ⟨.panic, out, effect⟩
  | .hang => ⟨.hang, out, effect⟩

/-- bytes as text -/
def textBytes (b : Bytes) : Str.Text := b.map (·.toNat)

/-- an error of the operating system -/
def noFile : Err := .msg "open"

/-- lines as `fmt.Println` prints them -/
def printed (l : List Str.Text) : Str.Text := l.flatMap fun s => s ++ [10]

/-- the options of `mp4tool dump`, dump.go:33-38 -/
def dumpFlags : List (Bytes × OptKind) := [(word "full", .text), (word "a", .switch), (word "mdat", .switch), (word "free", .switch), (word "offset", .switch), (word "hex", .switch)]

/-- the configuration, dump.go:52-69 -/
def dumpCfg (w : World) (l : List (Bytes × OptValue)) : DumpCfg where
  full := Edit.splitComma (textOf l "full" []) ++ (if switchOf l "mdat" then [word "mdat"] else []) ++ (if switchOf l "free" then [word "free", word "skip"] else [])
  showAll := switchOf l "a"
  offset := switchOf l "offset"
  hex := switchOf l "hex"
  width := w.width
  beyond := w.beyond

/-- the outcome without the result -/
def unitOf {α : Type} : Out α → Out Unit
  | .ok _ => .ok ()
  | .err e => .err e
  | .panic => .panic
  | .hang => .hang

/-- `dump.Main`, dump.go:31-76, with `dumpFile`, dump.go:85-93 -/
def dumpMain (w : World) (args : List Bytes) : Run :=
  match parse dumpFlags args with
  | .help => usage 0
  | .bad => usage 2
  | .ok _ [] => usage 1
  | .ok l (path :: _) =>
    match w.file path with
    | none => done w (.err noFile) [] .none
    | some d => done w (dump d (dumpCfg w l) w.fuel).1 (printed (dump d (dumpCfg w l) w.fuel).2) .none

/-- `extract.Main`, cmd/mp4tool/internal/extract/extract.go:19-54 -/
def extractMain (w : World) (args : List Bytes) : Run :=
  match parse [] args with
  | .help => usage 0
  | .bad => usage 2
  | .ok _ ([a, b, c, e] :: path :: _) =>
    match w.file path with
    | none => done w (.err noFile) [] .none
    | some d => done w (extract d ⟨a, b, c, e⟩ w.fuel).1 (textBytes (extract d ⟨a, b, c, e⟩ w.fuel).2) .none
  | .ok _ _ => usage 1

/-- what is printed about a box, psshdump.go:61-69 -/
def psshText (e : PsshEntry) : Str.Text := Str.num 10 e.index ++ Str.lit ":\n  offset: " ++ Str.num 10 e.offset ++ Str.lit "\n  size: " ++ Str.num 10 e.size ++
  Str.lit "\n  version: " ++ Str.num 10 e.version ++ Str.lit "\n  flags: 0x" ++ e.flags ++ Str.lit "\n  systemId: " ++ e.systemId ++ Str.lit "\n  dataSize: " ++
  Str.inum 10 e.dataSize ++ Str.lit "\n  base64: \"" ++ e.base64 ++ Str.lit "\"\n\n"

/-- `psshdump.Main`, psshdump.go:13-24; the entries printed before an error are not represented -/
def psshMain (w : World) : List Bytes → Run
  | [] => usage 1
  | path :: _ =>
    match w.file path with
    | none => done w (.err noFile) [] .none
    | some d =>
      match (psshdump BoxMap.std d w.fuel 0).1 with
      | .ok l => done w (.ok ()) (l.flatMap psshText) .none
      | o => done w (unitOf o) [] .none

/-- the option of `mp4tool probe`, cmd/mp4tool/internal/probe/probe.go:17 -/
def probeFlags : List (Bytes × OptKind) := [(word "format", .text)]

/-- what is printed, probe.go:37-49 -/
def probeOut (w : World) (format d : Bytes) : Out Str.Text :=
  if format = word "json" then (probeText BoxMap.std d w.fuel w.short w.secs 0).1
  else match (buildReport BoxMap.std d w.fuel 0).1 with
    | .ok r => .ok (w.yaml r)
    | .err e => .err e
    | .panic => .panic
    | .hang => .hang

/-- `probe.Main`, probe.go:15-55 -/
def probeMain (w : World) (args : List Bytes) : Run :=
  match parse probeFlags args with
  | .help => usage 0
  | .bad => usage 2
  | .ok _ [] => usage 1
  | .ok l (path :: _) =>
    match w.file path with
    | none => done w (.err noFile) [] .none
    | some d =>
      match probeOut w (textOf l "format" (word "json")) d with
      | .ok t => done w (.ok ()) t .none
      | o => done w (unitOf o) [] .none

/-- the options of `mp4tool alpha edit`, edit.go:40-41 -/
def editFlags : List (Bytes × OptKind) := [(word "base_media_decode_time", .number), (word "drop", .text)]

/-- `edit.Main`, edit.go:38-64, with the beginning of `editFile`, edit.go:66-78: `os.Create` leaves an empty file under the second path, and this is what
is read if the first path leads to the same file -/
def editMain (w : World) (args : List Bytes) : Run :=
  match parse editFlags args with
  | .help => usage 0
  | .bad => usage 2
  | .ok l (input :: output :: _) =>
    match w.file input with
    | none => done w (.err noFile) [] .none
    | some d =>
      if w.creates output then
        let r := Edit.editFile w.faults (if w.same input output then [] else d) (Edit.Config.ofOptions (numberOf l "base_media_decode_time") (textOf l "drop" [])) w.fuel
        done w r.1 [] (.wrote output r.2)
      else done w (.err noFile) [] .none
  | .ok _ _ => usage 1

/-- `divide.Main`, cmd/mp4tool/internal/divide/divide.go:27-38 -/
def divideMain (w : World) : List Bytes → Run
  | input :: dir :: _ =>
    match w.file input with
    | none => done w (.err noFile) [] .none
    | some d =>
      if w.creates dir then
        let r := divide d w.fuel
        done w r.1 [] (.divided dir r.2.1 r.2.2)
      else done w (.err noFile) [] .none
  | _ => usage 1

/-- `alpha`, cmd/mp4tool/main.go:42-57 -/
def alpha (w : World) : List Bytes → Run
  | [] => usage 1
  | c :: args => if c = word "edit" then editMain w args else if c = word "divide" then divideMain w args else usage 1

/-- `main`, cmd/mp4tool/main.go:15-40 -/
def run (w : World) : List Bytes → Run
  | [] => usage 1
  | c :: args =>
    if c = word "help" then usage 0
    else if c = word "dump" then dumpMain w args
    else if c = word "psshdump" then psshMain w args
    else if c = word "probe" then probeMain w args
    else if c = word "extract" then extractMain w args
    else if c = word "alpha" then alpha w args
    else usage 1

end Mp4.Cmd
