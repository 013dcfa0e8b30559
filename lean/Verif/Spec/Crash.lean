/-
Everything a program can ask of a line that it received, and the lines with which that can panic.
-/
import Verif.Model.Debug
import Verif.Model.Keys
import Verif.Spec.Sizes
import Verif.Spec.Msg

namespace Tmi.Spec
open Tmi.Model

/-- Ask, and forget the answer. -/
def tried {α : Type} (x : R α) : R Unit := x.map fun _ => ()

/-- What can be tried of a borrowed message: its parts, a tag `t`, a tag called `name`, its printed form, and to be turned into
a typed message, in general or of one type. -/
def asksRef (t : Tag) (name : Bytes) (esc : Nat → Bool) (alternate : Bool) (m : MsgRef) : List (R Unit) :=
  [tried m.tags, tried (m.tag t), tried (m.tagNamed name), tried m.prefix?, tried m.command, tried m.channel, tried m.params,
   tried m.text, tried (m.print esc alternate), tried m.asTyped,
   tried (ClearChat.parse m), tried (ClearMsg.parse m), tried (GlobalUserState.parse m), tried (Model.Join.parse m),
   tried (Notice.parse m), tried (Part.parse m), tried (Ping.parse m), tried (Pong.parse m), tried (Privmsg.parse m),
   tried (RoomState.parse m), tried (UserNotice.parse m), tried (UserState.parse m), tried (Whisper.parse m)]

/-- What can be tried of an owned message. -/
def asksOwned (t : Tag) (name : Bytes) (esc : Nat → Bool) (alternate : Bool) (m : MsgOwned) : List (R Unit) :=
  [tried m.tags, tried (m.tag t), tried (m.tagNamed name), tried m.prefix?, tried m.command, tried m.channel, tried m.params,
   tried m.text, tried (m.print esc alternate), tried m.asTyped]

/-- What can be tried of the name of a user. -/
def asksUser (u : User) : List (R Unit) := [tried u.getName]

/-- What can be tried of a typed message: its printed form, and the parts that a getter computes. -/
def asksTyped (esc : Nat → Bool) (alternate : Bool) (M : Message) : List (R Unit) :=
  tried (M.print esc alternate) ::
  match M with
  | .privmsg p => asksUser p.sender ++ p.replyTo.toList.flatMap fun r => tried r.getText :: asksUser r.sender
  | .whisper p => asksUser p.sender
  | .globalUserState p => [tried p.getName]
  | .userNotice p => tried p.getSystemMessage :: tried p.event.getSubPlanName :: p.sender.toList.flatMap asksUser ++
    match p.event with
    | .subGift _ r _ _ _ => asksUser r
    | _ => []
  | _ => []

/-- Something that can be tried of the line panics: to parse it, or something about the message that it was parsed into. -/
inductive CanPanic (b : Build) (s : Bytes) : Prop
  | parse (e : Fault) (h : MsgRef.parse b s = .error e)
  | parseOwned (e : Fault) (h : MsgOwned.parse b s = .error e)
  | parseTyped (e : Fault) (h : Message.parse b s = .error e)
  | ref (m : MsgRef) (hm : MsgRef.parse b s = .ok (some m)) (t : Tag) (name : Bytes) (esc : Nat → Bool) (alternate : Bool)
      (e : Fault) (h : .error e ∈ asksRef t name esc alternate m)
  | owned (m : MsgOwned) (hm : MsgOwned.parse b s = .ok (some m)) (t : Tag) (name : Bytes) (esc : Nat → Bool)
      (alternate : Bool) (e : Fault) (h : .error e ∈ asksOwned t name esc alternate m)
  | typed (M : Message) (hM : Message.parse b s = .ok (some M)) (esc : Nat → Bool) (alternate : Bool) (e : Fault)
      (h : .error e ∈ asksTyped esc alternate M)

/-- The lines that can crash a program. -/
inductive Crashing (b : Build) (s : Bytes) : Prop
  /-- more than 128 tags -/
  | tooMany (h : 128 < (tagPairs s).length)
  /-- without SIMD: tags that are not followed by anything -/
  | onlyTags (hb : b.tagParser = .scalar) (h : s.head? = some AT) (hs : SP ∉ s)
  /-- a message with a tag whose key or value, cut off at its length modulo 65536, is not a string -/
  | cutTag (l : Line) (hl : line s = some l) (kv : Option Bytes × Option Bytes) (hk : kv ∈ shortTagsOf s)
      (h : kv.1 = none ∨ kv.2 = none)
  /-- with overflow checks: a ROOMSTATE that restricts the channel to followers of more than 2^63 - 1 seconds -/
  | followers (hc : b.checks = true) (l : Line) (hl : line s = some l) (hr : l.command = b!"ROOMSTATE")
      (hch : l.channel ≠ none) (tags : List (Bytes × Bytes)) (ht : allStrings (shortTagsOf s) = some tags)
      (hi : lookup (b!"room-id") tags ≠ none) (v : Bytes) (n : Int)
      (hv : lookup (b!"followers-only") tags = some v) (hn : I64 v n) (h : 2 ^ 63 - 1 < n * 60)

end Tmi.Spec
