/-
What the log may show of connecting, and calls made one after the other with a subscriber.
-/
import Verif.Model.Logged
import Verif.Spec.Secret
import Verif.Spec.Sizes

namespace Tmi.Spec
open Tmi.Model

/-- The fixed texts. -/
def fixedTexts : List Bytes :=
  [b!"connecting", b!"loading native certificates", b!"opening connection to twitch", b!"opening tls stream to twitch",
   b!"reconnecting", b!"performing handshake", b!"waiting for CAP * ACK", b!"received CAP * ACK", b!"unexpected message",
   b!"waiting for NOTICE 001", b!"connected", b!"invalid credentials", b!"unrecognized error",
   b!"first message not recognized"]

/-- The text that announces the greeting: with the login, and stars for the token. -/
def greetingText (esc : Nat → Bool) (login : Bytes) : Bytes :=
  b!"CAP REQ \"twitch.tv/commands twitch.tv/tags twitch.tv/membership\"; NICK " ++ debugStr esc login ++ b!"; PASS ***"

/-- A record that shows a fixed text, the login, or a message that is the parse of one of the `lines`. -/
inductive Shows (esc : Nat → Bool) (b : Build) (login : Bytes) (lines : List Bytes) : Record → Prop
  | fixed (s : Bytes) (h : s ∈ fixedTexts) : Shows esc b login lines ⟨s, none⟩
  | greeting : Shows esc b login lines ⟨greetingText esc login, none⟩
  | received (s : Bytes) (h : s ∈ lines) (m : MsgOwned) (hm : MsgOwned.parse b s = .ok (some m)) (t : Bytes)
      (ht : m.print esc false = .ok t) : Shows esc b login lines ⟨b!"received message", some t⟩

/-- The lines that the server sends. -/
def sentLines (answers : List Answer) : List Bytes :=
  answers.filterMap fun a => match a with
    | .line s => some s
    | _ => none

/-- Every reported key and value of the line (`Spec/Sizes.lean`) is a string, so that the tags can be listed. -/
def Printable (s : Bytes) : Prop := ∀ kv ∈ shortTagsOf s, kv.1 ≠ none ∧ kv.2 ≠ none

/-- Make a call with a subscriber: its result, and the world and the records afterwards. -/
def Op.logged (esc : Nat → Bool) : Op → World × List Record → Outcome × (World × List Record)
  | .send c, w => (.sent (Logged.send c w).1, (Logged.send c w).2)
  | .recv b, w => (.received (Model.recv b w.1).1, ((Model.recv b w.1).2, w.2))
  | .reconnect b, w => (.reconnected (Logged.reconnect esc b w).1, (Logged.reconnect esc b w).2)

/-- Make calls one after the other, with what happens during each. -/
def loggedOutcomes (esc : Nat → Bool) :
    List (Op × List Answer) → World × List Record → List Outcome × (World × List Record)
  | [], w => ([], w)
  | (op, answers) :: rest, w =>
    let (o, w) := op.logged esc ({ w.1 with script := answers }, w.2)
    let (os, w) := loggedOutcomes esc rest w
    (o :: os, w)

end Tmi.Spec
