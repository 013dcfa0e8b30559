/-
Model of what the derived `PartialEq`, `Ord` and `Hash` of channel names, tags, commands and spans do:
src/common/channel.rs:5-7 and 81-83, src/irc/tags.rs:12, src/irc/command.rs:68, src/common.rs:8.
A derived implementation works on the position of the variant and then on the fields, in their order.
-/
import Verif.Model.Irc
import Verif.Model.Serde

namespace Tmi.Model

/-- A call that `Hash::hash` makes on the `Hasher`.  The derives of src/common/channel.rs:5, src/irc/tags.rs:12,
src/irc/command.rs:68 and src/common.rs:8 make these three. -/
inductive HashCall where
  /-- `write`, of the bytes of a string -/
  | bytes (bs : Bytes)
  /-- `write_u8` -/
  | byte (n : Nat)
  /-- `write_isize`, of the position of a variant -/
  | discr (n : Nat)
  /-- `write_u32` -/
  | u32 (n : Nat)
deriving DecidableEq, Repr

/-- `Hash for str`: the bytes and the byte 255, which is in no string.  Called by the derives of
src/common/channel.rs:5 and 81, src/irc/tags.rs:12 and src/irc/command.rs:68. -/
def strHash (s : Bytes) : List HashCall := [.bytes s, .byte 255]

/-- `Ord for str`: byte by byte; the end of a string is before all bytes.  Called by the derives of
src/common/channel.rs:5 and 81, src/irc/tags.rs:12 and src/irc/command.rs:68. -/
def strCmp : Bytes → Bytes → Ordering
  | [], [] => .eq
  | [], _ :: _ => .lt
  | _ :: _, [] => .gt
  | x :: a, y :: b => if x.toNat < y.toNat then .lt else if y.toNat < x.toNat then .gt else strCmp a b

/-- `PartialEq for ChannelRef`, derived (src/common/channel.rs:5): of the only field, a `str`. -/
def ChannelRef.eq (a b : Bytes) : Bool := a == b
/-- `Ord for ChannelRef`, derived (src/common/channel.rs:5). -/
def ChannelRef.cmp (a b : Bytes) : Ordering := strCmp a b
/-- `Hash for ChannelRef`, derived (src/common/channel.rs:5). -/
def ChannelRef.hash (a : Bytes) : List HashCall := strHash a

/-- `PartialEq for Channel`, derived (src/common/channel.rs:81): of the only field, a `String`. -/
def Channel.eq (a b : Bytes) : Bool := a == b
/-- `Ord for Channel`, derived (src/common/channel.rs:81). -/
def Channel.cmp (a b : Bytes) : Ordering := strCmp a b
/-- `Hash for Channel`, derived (src/common/channel.rs:81); `String` hashes as `str`. -/
def Channel.hash (a : Bytes) : List HashCall := strHash a

/-- `Borrow<str> for ChannelRef` (src/common/channel.rs:54-58). -/
def ChannelRef.borrowStr (a : Bytes) : Bytes := a
/-- `Borrow<str> for Channel` (src/common/channel.rs:126-130). -/
def Channel.borrowStr (a : Bytes) : Bytes := a
/-- `Borrow<ChannelRef> for Channel` (src/common/channel.rs:132-136). -/
def Channel.borrowRef (a : Bytes) : Bytes := a

/-- The name in `Tag::Unknown` and nothing for the other variants: the fields that the derives of
src/irc/tags.rs:12 work on. -/
def Tag.field : Tag → Option Bytes
  | .unknown key => some key
  | _ => none

/-- `PartialEq for Tag`, derived (src/irc/tags.rs:12). -/
def Tag.eq (a b : Tag) : Bool := a.ctorIdx == b.ctorIdx && a.field == b.field

/-- `Ord for Tag`, derived (src/irc/tags.rs:12): the variants in the order of the table, `Unknown` last. -/
def Tag.cmp (a b : Tag) : Ordering :=
  (compare a.ctorIdx b.ctorIdx).then
    (match a.field, b.field with
     | some x, some y => strCmp x y
     | _, _ => .eq)

/-- `Hash for Tag`, derived (src/irc/tags.rs:12). -/
def Tag.hash (a : Tag) : List HashCall :=
  .discr a.ctorIdx :: (match a.field with | some x => strHash x | none => [])

/-- The token in `Command::Other` and nothing for the other variants: the fields that the derives of
src/irc/command.rs:68 work on. -/
def Command.field : Command → Option Bytes
  | .other cmd => some cmd
  | _ => none

/-- `PartialEq for Command`, derived (src/irc/command.rs:68). -/
def Command.eq (a b : Command) : Bool := a.ctorIdx == b.ctorIdx && a.field == b.field

/-- `Ord for Command`, derived (src/irc/command.rs:68). -/
def Command.cmp (a b : Command) : Ordering :=
  (compare a.ctorIdx b.ctorIdx).then
    (match a.field, b.field with
     | some x, some y => strCmp x y
     | _, _ => .eq)

/-- `Hash for Command`, derived (src/irc/command.rs:68). -/
def Command.hash (a : Command) : List HashCall :=
  .discr a.ctorIdx :: (match a.field with | some x => strHash x | none => [])

/-- `From<&str> for Tag` (src/irc/tags.rs:74-78), which `tag` calls when it is given a string (src/irc.rs:141, 254). -/
def Tag.ofStr (value : Bytes) : Tag := Tag.parse value

/-- `tag` of a borrowed message, called with a string (src/irc.rs:140-148). -/
def MsgRef.tagNamed (m : MsgRef) (name : Bytes) : R (Option Bytes) := m.tag (.ofStr name)

/-- `tag` of an owned message, called with a string (src/irc.rs:253-261). -/
def MsgOwned.tagNamed (m : MsgOwned) (name : Bytes) : R (Option Bytes) := m.tag (.ofStr name)

end Tmi.Model
