/-
The lines in which the server passes on what chatters write, and the parts of them that chatters choose.
-/
import Verif.Spec.Msg
import Verif.Spec.Escape

namespace Tmi.Spec

/-- What the server puts around the text that somebody wrote: `@tags :prefix COMMAND target :text`. -/
structure Frame where
  /-- key/value pairs, in order -/
  tags : List (Bytes × Bytes)
  /-- what follows the `:` -/
  pfx : Bytes
  /-- command -/
  command : Bytes
  /-- the channel, or the user that a whisper is for -/
  target : Bytes

/-- The line with this text. -/
def Frame.line (f : Frame) (text : Bytes) : Bytes :=
  [AT] ++ renderTags f.tags ++ [SP, COLON] ++ f.pfx ++ [SP] ++ f.command ++ [SP] ++ f.target ++ [SP, COLON] ++ text

/-- The parts that come from the server have none of the characters that would end them. -/
structure Frame.Ok (f : Frame) : Prop where
  keys : ∀ p ∈ f.tags, EQS ∉ p.1 ∧ SP ∉ p.1
  values : ∀ p ∈ f.tags, SEMI ∉ p.2 ∧ SP ∉ p.2
  pfx : SP ∉ f.pfx
  command : SP ∉ f.command ∧ f.command ≠ []
  target : SP ∉ f.target

/-- A frame in which the value of one tag is a text that somebody chose. -/
structure Gap where
  /-- the tags before it -/
  before : List (Bytes × Bytes)
  /-- the name of the tag -/
  key : Bytes
  /-- the tags after it -/
  after : List (Bytes × Bytes)
  /-- what follows the `:` -/
  pfx : Bytes
  /-- command -/
  command : Bytes
  /-- the channel, or the user that a whisper is for -/
  target : Bytes

/-- The frame with the chosen text, which the server escapes. -/
def Gap.fill (g : Gap) (text : List Char) : Frame :=
  ⟨g.before ++ (g.key, enc (escape text)) :: g.after, g.pfx, g.command, g.target⟩

/-- The parts that come from the server are as in a frame, and the tag is not there twice. -/
structure Gap.Ok (g : Gap) : Prop where
  frame : (g.fill []).Ok
  once : g.key ∉ g.before.map (·.1)

end Tmi.Spec
