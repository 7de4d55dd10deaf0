/-! # Model: the console

`crates/gosub_jsapi/src/console.rs`, `console/formatter.rs` and `console/writable_printer.rs`.

The clock is an argument of the calls that read it, in milliseconds. Data is what `Display` writes. -/

namespace Verif.Console

abbrev Str := List Char

/-- `LogLevel` (console.rs:15-32). -/
inductive Level where
  | info | warn | error | log | debug | assert | group | groupCollapsed | groupEnd | timeLog | timeEnd
  | count | countReset | dir | dirxml | trace
deriving DecidableEq

/-- `Display for LogLevel` (console.rs:34-39). -/
def Level.name : Level → Str
  | .info => "info".toList
  | .warn => "warn".toList
  | .error => "error".toList
  | .log => "log".toList
  | .debug => "debug".toList
  | .assert => "assert".toList
  | .group => "group".toList
  | .groupCollapsed => "groupcollapsed".toList
  | .groupEnd => "groupend".toList
  | .timeLog => "timelog".toList
  | .timeEnd => "timeend".toList
  | .count => "count".toList
  | .countReset => "countreset".toList
  | .dir => "dir".toList
  | .dirxml => "dirxml".toList
  | .trace => "trace".toList

/-- What is white space to `trim_end`. -/
def isSpace (c : Char) : Bool :=
  [9, 10, 11, 12, 13, 32, 0x85, 0xA0, 0x1680, 0x2028, 0x2029, 0x202F, 0x205F, 0x3000].contains c.toNat ||
  decide (0x2000 ≤ c.toNat ∧ c.toNat ≤ 0x200A)

/-- `trim_end`. -/
def trimEnd (s : Str) : Str := (s.reverse.dropWhile isSpace).reverse

/-- A number as `Display` writes it. -/
def num (n : Nat) : Str := n.repr.toList

/-- `format` (formatter.rs:14-21). -/
def format (args : List Str) : Str := trimEnd (args.flatMap (fun a => a ++ [' ']))

/-- `WritablePrinter` (writable_printer.rs:16-19): the open groups, whether collapsed, and the lines that
are written. `calls` records what the console asked of its printer. -/
structure Printer where
  groups : List Bool
  out : List Str
  calls : List (Level × List Str)

/-- `print` (writable_printer.rs:42-81). -/
def Printer.print (p : Printer) (lv : Level) (args : List Str) : Printer :=
  let p := { p with calls := p.calls ++ [(lv, args)] }
  if args = [] then p
  else
    let groups := match lv with
      | .group => p.groups ++ [false]
      | .groupCollapsed => p.groups ++ [true]
      | .groupEnd => p.groups.dropLast
      | _ => p.groups
    let pre := (List.replicate groups.length [' ', '>', ' ']).flatten
    let data := trimEnd (args.flatMap (fun a => a ++ [' ']))
    let out := match lv with
      | .info | .warn | .error | .log | .assert => p.out ++ [pre ++ ['['] ++ lv.name ++ [']', ' '] ++ data]
      | .group => p.out ++ [pre ++ "Expanded group: ".toList ++ data]
      | .groupCollapsed => p.out ++ [pre ++ "Collapsed group: ".toList ++ data]
      | .timeEnd => p.out ++ [pre ++ data ++ " - timer ended".toList]
      | _ => p.out
    { p with groups := groups, out := out }

/-- `clear` (writable_printer.rs:84-87). -/
def Printer.clear (p : Printer) : Printer := { p with out := p.out ++ ["--- Clear ---".toList] }

/-- `end_group` (writable_printer.rs:90-92). -/
def Printer.endGroup (p : Printer) : Printer := { p with groups := p.groups.dropLast }

/-- `Console` (console.rs:54-65). Maps are functions; of a timer only its start is ever used. -/
structure Con where
  timers : Str → Option Nat
  counts : Str → Option Nat
  groups : List Str
  printer : Printer

/-- `new` (console.rs:77-86). -/
def start : Con := ⟨fun _ => none, fun _ => none, [], ⟨[], [], []⟩⟩

def put (m : Str → Option Nat) (k : Str) (v : Nat) : Str → Option Nat := fun x => if x = k then some v else m x

def Con.print (c : Con) (lv : Level) (args : List Str) : Con := { c with printer := c.printer.print lv args }

/-- `logger` (console.rs:287-300). -/
def Con.logger (c : Con) (lv : Level) : List Str → Con
  | [] => c
  | [a] => c.print lv [a]
  | args => c.print lv [format args]

/-- The calls. `label` in the calls for groups is the one that is made up if there is no data; `now` is
the time. -/
inductive Call where
  | assert (condition : Bool) (data : List Str)
  | clear
  | message (lv : Level) (data : List Str)
  | trace (data : List Str)
  | count (label : Str)
  | countReset (label : Str)
  | group (collapsed : Bool) (data : List Str) (label : Str)
  | groupEnd
  | time (label : Str) (now : Nat)
  | timeLog (label : Str) (data : List Str) (now : Nat)
  | timeEnd (label : Str) (now : Nat)
deriving DecidableEq

/-- The label of a group (console.rs:183-187, 202-206). -/
def groupLabel (data : List Str) (label : Str) : Str :=
  if data = [] then "console.group.".toList ++ label else format data

/-- `group_end` (console.rs:218-221): the console and the group that has ended. -/
def Con.groupEnd (c : Con) : Con × Option Str :=
  ({ c with printer := c.printer.endGroup, groups := c.groups.dropLast }, c.groups.getLast?)

/-- The methods of the console (console.rs:94-285). `none` is a panic: the subtraction of times below
zero, in builds that check for it. `message` stands for `debug`, `error`, `info`, `log` and `warn`. -/
def Con.step (c : Con) : Call → Option Con
  | .assert condition data =>
    if condition then some c
    else
      some (c.logger .assert [match data with
        | [] => "Assertion failed".toList
        | d :: _ => "Assertion failed".toList ++ [':', ' '] ++ d])
  | .clear => some { c with printer := c.printer.clear }
  | .message lv data => some (c.logger lv data)
  | .trace data => some (c.print .trace [format data])
  | .count label =>
    let cnt := match c.counts label with
      | some n => n + 1
      | none => 1
    some ({ c with counts := put c.counts label cnt }.logger .count [label ++ [':', ' '] ++ num cnt])
  | .countReset label =>
    match c.counts label with
    | none => some (c.logger .countReset ["label does not exist".toList])
    | some _ => some { c with counts := put c.counts label 0 }
  | .group collapsed data label =>
    let l := groupLabel data label
    let c := c.print (if collapsed then .groupCollapsed else .group) [l]
    some { c with groups := c.groups ++ [l] }
  | .groupEnd => some c.groupEnd.1
  | .time label now =>
    match c.timers label with
    | some _ => some (c.logger .warn ["Timer '".toList ++ label ++ "' already started".toList])
    | none => some { c with timers := put c.timers label now }
  | .timeLog label data now =>
    match c.timers label with
    | none => some (c.print .warn ["Timer '".toList ++ label ++ "' does not exist".toList])
    | some t =>
      if now < t then none
      else some (c.print .timeLog [label ++ [':', ' '] ++ num (now - t) ++ "ms".toList ++
        trimEnd (' ' :: data.flatMap (fun a => a ++ [' ']))])
  | .timeEnd label now =>
    match c.timers label with
    | none => some (c.print .warn ["Timer '".toList ++ label ++ "' does not exist".toList])
    | some t =>
      if now < t then none
      else some (c.print .timeEnd [label ++ [':', ' '] ++ num (now - t) ++ "ms".toList])

end Verif.Console
