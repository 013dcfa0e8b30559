/-
The end of a connection in the middle of a line: how much of the lines has arrived, and what is left of something that the
server says if its line ends too early.
-/
import Verif.Spec.Serve
import Verif.Spec.Lines

namespace Tmi.Spec
open Tmi.Model

/-- The bytes in which the server sends lines. -/
def lineBytes (ls : List Bytes) : Bytes := ls.flatMap fun l => l ++ [CR, LF]

/-- Of the lines `ls`, those in `whole` have arrived, and of the next one `rest`, which may be nothing. -/
structure ArrivedOf (ls whole : List Bytes) (rest wire : Bytes) : Prop where
  bytes : wire = lineBytes whole ++ rest
  complete : whole <+: ls
  cut : rest = [] ∨ ∃ l, ls[whole.length]? = some l ∧ rest <+: l ++ [CR]

/-- What is left of something that was said if the end of its line is missing.  (If only the `\n` is missing, then there
is a `\r` too much.) -/
inductive Shortened : Said → Said → Prop
  /-- a chat message: the beginning of its text.  An action without its last character is no action. -/
  | chat (c : Chat) (text : Bytes) (action : Bool) (h : actionText action text <+: actionText c.action c.text ++ [CR]) :
    Shortened (.chat c) (.chat { c with text, action })
  /-- the name of the channel, which comes last -/
  | cleared (p : Place) (channel : Bytes) (h : channel <+: p.channel ++ [CR]) :
    Shortened (.cleared p) (.cleared { p with channel })
  | joined (login channel : Bytes) (channel' : Bytes) (h : channel' <+: channel ++ [CR]) :
    Shortened (.joined login channel) (.joined login channel')
  | parted (login channel : Bytes) (channel' : Bytes) (h : channel' <+: channel ++ [CR]) :
    Shortened (.parted login channel) (.parted login channel')
  /-- the name of the user who was banned or timed out -/
  | banned (p : Place) (user userId : Bytes) (user' : Bytes) (h : user' <+: user ++ [CR]) :
    Shortened (.banned p user userId) (.banned p user' userId)
  | timedOut (p : Place) (user userId : Bytes) (n : Nat) (user' : Bytes) (h : user' <+: user ++ [CR]) :
    Shortened (.timedOut p user userId n) (.timedOut p user' userId n)
  /-- nothing of that name: then it is as if the chat had been cleared -/
  | bannedNobody (p : Place) (user userId : Bytes) (channel : Bytes) (h : channel <+: p.channel) :
    Shortened (.banned p user userId) (.cleared { p with channel })
  | timedOutNobody (p : Place) (user userId : Bytes) (n : Nat) (channel : Bytes) (h : channel <+: p.channel) :
    Shortened (.timedOut p user userId n) (.cleared { p with channel })
  /-- the text of a deleted message -/
  | deleted (p : Place) (author id text : Bytes) (action : Bool) (text' : Bytes) (action' : Bool)
    (h : actionText action' text' <+: actionText action text ++ [CR]) :
    Shortened (.deleted p author id text action) (.deleted p author id text' action')

end Tmi.Spec
