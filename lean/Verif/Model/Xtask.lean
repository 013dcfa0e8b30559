/-
The tasks of the repository (`cargo x setup`, `cargo x test`, `cargo x changelog`): xtask/src.
-/
import Verif.Model.Lines
import Verif.Model.Msg

namespace Tmi.Model.Xtask

/-- A program and its arguments (`std::process::Command`, built at xtask/src/util.rs:10-20, 55-70). -/
abbrev Argv := List Bytes

/-- How a process ended: its status and what it wrote to stdout (xtask/src/util.rs:82, 86-90).  `code` is the number that
`ExitStatus::code` gives, as text, or `none` if a signal ended the process. -/
structure Ran where
  success : Bool
  code : Option Bytes
  stdout : Bytes
deriving DecidableEq, Repr

/-- Everything outside of the task that it depends on (xtask/src/util.rs:81-93, xtask/src/task/changelog.rs:50-59):
`outside` is how the last of the commands ended that have been run, oldest first (`none` if it could not be started);
`canOpen` says whether CHANGELOG.md can be created or truncated, `accepts` how many bytes each call to `write` accepts (0, or
the end of the list, for a call that fails). -/
structure Env where
  outside : List Argv → Option Ran
  canOpen : Bool
  accepts : List Nat

/-- What a task changes: the commands it has run, oldest first, CHANGELOG.md (`none` if there is none), and what was in
CHANGELOG.md before each change to it, newest first.  The effects of xtask/src/util.rs:82, 86-90 and
xtask/src/task/changelog.rs:52-59. -/
structure Site where
  ran : List Argv
  file : Option Bytes
  past : List (Option Bytes)
deriving DecidableEq, Repr

/-- How a task ends if it does not succeed (xtask/src/main.rs:23-31): a panic, or an `anyhow::Error` with its text, where
`none` stands for the text of an error of the standard library. -/
inductive Fail where
  | panic
  | error (text : Option Bytes)
deriving DecidableEq, Repr

/-- A task, or a part of it: `Result` with effects (xtask/src/main.rs:9). -/
abbrev Job (α : Type) := Env → Site → Except Fail α × Site

/-- Give a value, as in `Ok(())`, e.g. at xtask/src/task/changelog.rs:61. -/
def give {α : Type} (a : α) : Job α := fun _ w => (.ok a, w)

/-- Stop: an error that `?` passes on (xtask/src/task/changelog.rs:28), or a panic (xtask/src/task/changelog.rs:50). -/
def giveUp {α : Type} (f : Fail) : Job α := fun _ w => (.error f, w)

/-- Do one after the other; an error ends both (`?`, e.g. at xtask/src/task/changelog.rs:28). -/
def andThen {α β : Type} (x : Job α) (f : α → Job β) : Job β := fun e w =>
  match x e w with
  | (.ok a, w) => f a e w
  | (.error f, w) => (.error f, w)

instance : Monad Job where
  pure := give
  bind := andThen

/-- `CheckStatus::check` (xtask/src/util.rs:101-109). -/
def check (r : Ran) : Job Unit :=
  if r.success then give ()
  else giveUp (.error (some (b!"Process exited with error code " ++ r.code.getD (b!"-1"))))

/-- `spawn()?` and `wait()?` or `wait_with_output()?` (xtask/src/util.rs:82, 86-90). -/
def spawn (c : Argv) : Job Ran := fun e w =>
  let w := { w with ran := w.ran ++ [c] }
  match e.outside w.ran with
  | some r => (.ok r, w)
  | none => (.error (.error none), w)

/-- `CommandExt::run` (xtask/src/util.rs:81-83). -/
def run (c : Argv) : Job Unit := do
  let r ← spawn c
  check r

/-- `CommandExt::run_with_output` (xtask/src/util.rs:85-93). -/
def runWithOutput (c : Argv) : Job Bytes := do
  let r ← spawn c
  check r
  if isUtf8 r.stdout then give r.stdout else giveUp (.error none)

/-- `git` (xtask/src/util.rs:10-12) with arguments. -/
def git (args : List Bytes) : Argv := b!"git" :: args

/-- `rustup` (xtask/src/util.rs:14-16) with arguments. -/
def rustup (args : List Bytes) : Argv := b!"rustup" :: args

/-- `cargo` (xtask/src/util.rs:18-20) with arguments.  Simplified: the program is `env!("CARGO")`, the cargo the task was
compiled with; it stands as `cargo` here. -/
def cargo (args : List Bytes) : Argv := b!"cargo" :: args

/-- `str::trim`, as called at xtask/src/util.rs:28 and xtask/src/task/changelog.rs:29. -/
def trim (s : Bytes) : Bytes :=
  Spec.enc (((decode s).dropWhile Spec.isWhite).reverse.dropWhile Spec.isWhite).reverse

/-- `char::is_ascii_whitespace` and `u8::is_ascii_whitespace`, used at xtask/src/util.rs:27, 29. -/
def isAsciiWhite (x : UInt8) : Bool := x == 0x20 || x == 0x09 || x == 0x0A || x == 0x0C || x == 0x0D

/-- `split_ascii_whitespace().next()` (xtask/src/util.rs:29). -/
def firstWord (s : Bytes) : Option Bytes :=
  match s.dropWhile isAsciiWhite with
  | [] => none
  | x :: t => some ((x :: t).takeWhile fun x => !isAsciiWhite x)

/-- The `filter`, `map`, `map` and `any` of `has_cargo_subcmd` (xtask/src/util.rs:27-30), one line after the other until
`any` has found the command. -/
def anyLine (cmd : Bytes) : List Bytes → Job Bool
  | [] => give false
  | v :: vs =>
    if (v.head?.map isAsciiWhite).getD false then
      match firstWord (trim v) with
      | none => giveUp .panic
      | some w => if w = cmd then give true else anyLine cmd vs
    else anyLine cmd vs

/-- `has_cargo_subcmd` (xtask/src/util.rs:22-32). -/
def hasCargoSubcmd (cmd : Bytes) : Job Bool := do
  let out ← runWithOutput (cargo [b!"--list"])
  anyLine cmd (splitOn LF out)

/-- `COMPONENTS` (xtask/src/task/setup.rs:5). -/
def components : List Bytes := [b!"rustfmt", b!"clippy"]

/-- `TOOLS` (xtask/src/task/setup.rs:6). -/
def tools : List Bytes := [b!"cargo-insta"]

/-- `Setup::run` (xtask/src/task/setup.rs:17-40). -/
def setup (binary : Bool) : Job Unit := do
  if binary then do
    let has ← hasCargoSubcmd (b!"binstall")
    if !has then run (cargo [b!"install", b!"cargo-binstall"])
    run (cargo ([b!"binstall", b!"--no-confirm", b!"--locked"] ++ tools))
  else
    run (cargo ([b!"install", b!"--locked"] ++ tools))
  run (rustup ([b!"component", b!"add"] ++ components))

/-- `Test::run` (xtask/src/task/test.rs:14-26). -/
def test (rest : List Bytes) : Job Unit :=
  run (cargo ([b!"insta", b!"test", b!"--all-features", b!"--lib", b!"--review"] ++ rest))

/-- `lines.join(sep)`, as called at xtask/src/task/changelog.rs:57. -/
def joinText (sep : Bytes) : List Bytes → Bytes
  | [] => []
  | [s] => s
  | s :: ss => s ++ sep ++ joinText sep ss

/-- The `for` loop of `Changelog::run` (xtask/src/task/changelog.rs:32-40). -/
def commitLines : List Bytes → (lines : List Bytes) → Job (List Bytes)
  | [], lines => give lines
  | commit :: commits, lines => do
    let message ← runWithOutput (git [b!"show", b!"--quiet", b!"--pretty=format:%B", commit])
    let (firstLine, remainder) := (splitOnce LF message).getD (message, [])
    let url := b!"https://github.com/jprochazk/tmi-rs/commit/" ++ commit
    commitLines commits
      (lines ++ [firstLine ++ b!" [" ++ commit ++ b!"](" ++ url ++ b!")"] ++ [remainder])

/-- `read_to_string("CHANGELOG.md").unwrap()` (xtask/src/task/changelog.rs:50). -/
def readFile : Job Bytes := fun _ w =>
  match w.file with
  | some s => if isUtf8 s then (.ok s, w) else (.error .panic, w)
  | none => (.error .panic, w)

/-- The contents of CHANGELOG.md change.  Within `fs::write` (xtask/src/task/changelog.rs:52). -/
def Site.put (w : Site) (s : Bytes) : Site := { w with file := some s, past := w.file :: w.past }

/-- `write_all` of `fs::write` (xtask/src/task/changelog.rs:52): `done` has been written, `todo` has not. -/
def writeRest (done : Bytes) : (todo : Bytes) → (accepts : List Nat) → Site → Except Fail Unit × Site
  | [], _, w => (.ok (), w)
  | _ :: _, [], w => (.error (.error none), w)
  | x :: t, n :: ns, w =>
    if n = 0 then (.error (.error none), w)
    else
      let done := done ++ (x :: t).take n
      writeRest done ((x :: t).drop n) ns (w.put done)

/-- `fs::write("CHANGELOG.md", s)?` (xtask/src/task/changelog.rs:52-59): the file is emptied, then written. -/
def writeFile (s : Bytes) : Job Unit := fun e w =>
  if e.canOpen then writeRest [] s e.accepts (w.put []) else (.error (.error none), w)

/-- `Changelog::run` (xtask/src/task/changelog.rs:17-62). -/
def changelog (since : Bytes) (until? : Option Bytes) : Job Unit := do
  let gitLog ← runWithOutput
    (git [b!"log", since ++ b!".." ++ until?.getD (b!"HEAD"), b!"--pretty=format:%h"])
  let commits := splitOn LF (trim gitLog)
  let lines ← commitLines commits []
  let latest ← runWithOutput (git [b!"log", b!"-1", b!"--pretty=format:%h"])
  let range := b!"[" ++ since ++ b!".." ++ latest ++ b!"](https://github.com/jprochazk/tmi-rs/compare/" ++ since ++
    b!"..." ++ latest ++ b!")"
  let existing ← readFile
  writeFile (range ++ b!"\n\n" ++ joinText (b!"\n") lines ++ b!"\n\n" ++ existing)

/-- `main` (xtask/src/main.rs:23-31): the exit code (`none`: a panic) and what goes to stderr, where `io` is the text of an
error of the standard library.  `Task::run` (xtask/src/task.rs:17-24) only passes on. -/
def main (task : Job Unit) (io : Bytes) : Env → Site → (Option Nat × Bytes) × Site := fun e w =>
  match task e w with
  | (.ok (), w) => ((some 0, []), w)
  | (.error .panic, w) => ((none, []), w)
  | (.error (.error t), w) => ((some 1, t.getD io), w)

end Tmi.Model.Xtask
