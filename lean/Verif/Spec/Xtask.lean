/-
Specification of the tasks of the repository: commits, sections of the changelog, the list of commands of cargo.
-/
import Verif.Spec.Roll
import Verif.Spec.Msg
import Verif.Model.Xtask

namespace Tmi.Spec
open Tmi.Model.Xtask (Argv Ran)

/-- A commit: its abbreviated hash, the first line of its message and what follows that line, if anything does. -/
structure Commit where
  hash : Bytes
  subject : Bytes
  body : Option Bytes
deriving DecidableEq, Repr

/-- The message of a commit. -/
def Commit.message (c : Commit) : Bytes :=
  match c.body with
  | none => c.subject
  | some r => c.subject ++ LF :: r

/-- A commit as git has them: the hash is one word, the subject one line, the message is text. -/
structure Commit.Ok (c : Commit) : Prop where
  hash : IsWord c.hash
  subject : LF ∉ c.subject
  text : Utf8 c.message

/-- The entry for a commit: its subject with a link to it, and on the next lines the rest of its message. -/
def Commit.entry (c : Commit) : Bytes :=
  c.subject ++ b!" [" ++ c.hash ++ b!"](https://github.com/jprochazk/tmi-rs/commit/" ++ c.hash ++ b!")\n" ++ c.body.getD []

/-- A section of the changelog: a link to the range of commits, and an entry for each commit. -/
def changes (since last : Bytes) (cs : List Commit) : Bytes :=
  b!"[" ++ since ++ b!".." ++ last ++ b!"](https://github.com/jprochazk/tmi-rs/compare/" ++ since ++ b!"..." ++ last ++
    b!")\n\n" ++ joinWith LF (cs.map Commit.entry) ++ b!"\n\n"

/-- Whenever the command is run, it succeeds and prints `out`. -/
def Prints (o : List Argv → Option Ran) (c : Argv) (out : Bytes) : Prop :=
  ∀ before, ∃ code, o (before ++ [c]) = some ⟨true, code, out⟩

/-- Git lists the commits `cs` for the range, can show each of them, and `last` is the newest commit. -/
structure GitHas (o : List Argv → Option Ran) (range : Bytes) (cs : List Commit) (last : Bytes) : Prop where
  log : Prints o [b!"git", b!"log", range, b!"--pretty=format:%h"] (joinWith LF (cs.map Commit.hash))
  shown : ∀ c ∈ cs, Prints o [b!"git", b!"show", b!"--quiet", b!"--pretty=format:%B", c.hash] c.message
  last : Prints o [b!"git", b!"log", b!"-1", b!"--pretty=format:%h"] last

/-- A command that only reads from the repository: `git log` or `git show`. -/
def OnlyReads (c : Argv) : Prop := ∃ rest, c = b!"git" :: b!"log" :: rest ∨ c = b!"git" :: b!"show" :: rest

/-- A history without branches, newest commit first: the commits that `git log a..b` lists, which are those after `a`
up to `b`. -/
def after (cs : List Commit) (a b : Bytes) : List Commit :=
  (cs.dropWhile fun c => c.hash != b).takeWhile fun c => c.hash != a

/-- The commits from `a` to `b`, both included, as the help text of the task has it. -/
def fromTo (cs : List Commit) (a b : Bytes) : List Commit :=
  after cs a b ++ cs.filter fun c => c.hash == a

/-- Git in a repository with this history; names are hashes, or HEAD for the newest commit. -/
def linear (cs : List Commit) (cmds : List Argv) : Option Ran :=
  let newest := (cs.map Commit.hash).headD []
  match cmds.getLast? with
  | some [g, l, r, _] =>
    if g = b!"git" ∧ l = b!"log" then
      if r = b!"-1" then some ⟨true, some (b!"0"), newest⟩
      else match find 0x2E r with
        | none => some ⟨false, some (b!"128"), []⟩
        | some i =>
          let b := r.drop (i + 2)
          some ⟨true, some (b!"0"),
            joinWith LF ((after cs (r.take i) (if b = b!"HEAD" then newest else b)).map Commit.hash)⟩
    else none
  | some [g, s, _, _, h] =>
    if g = b!"git" ∧ s = b!"show" then
      match cs.find? fun c => c.hash == h with
      | some c => some ⟨true, some (b!"0"), c.message⟩
      | none => some ⟨false, some (b!"128"), []⟩
    else none
  | _ => none

/-! ### cargo -/

/-- A line of `cargo --list`: a heading, or a command after some blanks, with what is said about it. -/
inductive Item where
  | heading (text : Bytes)
  | command (blanks : Nat) (name about : List Char)

/-- The line as it is printed. -/
def Item.line : Item → Bytes
  | .heading t => t
  | .command n name about => List.replicate (n + 1) SP ++ enc name ++ enc about

/-- A heading does not begin with a blank; a name is a word, and a blank comes after it if anything does. -/
def Item.Ok : Item → Prop
  | .heading t => Utf8 t ∧ LF ∉ t ∧ ∀ x ∈ t.head?, x ≠ SP ∧ ¬ (9 ≤ x ∧ x ≤ 13)
  | .command _ name about =>
    name ≠ [] ∧ (∀ c ∈ name, isWhite c = false) ∧ '\n' ∉ about ∧ ∀ c ∈ about.head?, c = ' '

/-- The commands in a list. -/
def Item.name? : Item → Option Bytes
  | .heading _ => none
  | .command _ name _ => some (enc name)

/-- A list of commands as cargo prints it. -/
def listing (is : List Item) : Bytes := joinWith LF (is.map Item.line)

/-- The names in a list of commands. -/
def listedNames (is : List Item) : List Bytes := is.filterMap Item.name?

/-- Commands run one after the other until one does not succeed: what has been run then, and whether all succeeded. -/
def untilFailed (o : List Argv → Option Ran) : (ran plan : List Argv) → List Argv × Bool
  | ran, [] => (ran, true)
  | ran, c :: cs =>
    if (o (ran ++ [c])).any (·.success) then untilFailed o (ran ++ [c]) cs else (ran ++ [c], false)

end Tmi.Spec
