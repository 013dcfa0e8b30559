/-
What `{:?}` and `{:#?}` of a message say, in terms of its serialised form.
-/
import Verif.Spec.Debug
import Verif.Spec.Shape

namespace Tmi.Spec
open Model hiding Kind

/-! ### Layout -/

/-- Texts with a comma and a space between them. -/
def commas : List Bytes → Bytes
  | [] => []
  | [t] => t
  | t :: u :: rest => t ++ b!", " ++ commas (u :: rest)

/-- A text with every line moved four columns to the right. -/
def indent (t : Bytes) : Bytes := b!"    " ++ t.flatMap fun c => if c = 0x0A then b!"\n    " else [c]

/-- Things between brackets: on one line, or (`alternate`) on a line each, indented and followed by a comma. -/
def bracket (alternate : Bool) (left right space : Bytes) (items : List Bytes) : Bytes :=
  if alternate then left ++ b!"\n" ++ (items.flatMap fun t => indent t ++ b!",\n") ++ right
  else left ++ space ++ commas items ++ space ++ right

/-- `Name { .. }`. -/
def braces (alternate : Bool) (name : Bytes) (fields : List Bytes) : Bytes :=
  bracket alternate (name ++ b!" {") (b!"}") (b!" ") fields

/-- `Name { .., .. }`: a struct of which not everything is shown. -/
def bracesMore (alternate : Bool) (name : Bytes) (fields : List Bytes) : Bytes :=
  if alternate then name ++ b!" {\n" ++ (fields.flatMap fun t => indent t ++ b!",\n") ++ b!"    ..\n}"
  else name ++ b!" { " ++ commas (fields ++ [b!".."]) ++ b!" }"

/-- `Name(..)`. -/
def parens (alternate : Bool) (name : Bytes) (items : List Bytes) : Bytes :=
  bracket alternate (name ++ b!"(") (b!")") [] items

/-- `[..]`. -/
def squares (alternate : Bool) (items : List Bytes) : Bytes :=
  if items = [] then b!"[]" else bracket alternate (b!"[") (b!"]") [] items

/-- `None`, or `Some(..)`. -/
def optionally {α : Type} (alternate : Bool) (f : α → Bytes) : Option α → Bytes
  | none => b!"None"
  | some v => parens alternate (b!"Some") [f v]

/-! ### Strings -/

/-- The digits of a number in base 16, in lower case, without leading zeros. -/
def hexDigits (n : Nat) : Bytes :=
  if h : n < 16 then [UInt8.ofNat (if n < 10 then 48 + n else 87 + n)]
  else hexDigits (n / 16) ++ [UInt8.ofNat (if n % 16 < 10 then 48 + n % 16 else 87 + n % 16)]
termination_by n

/-- The text between the quotes of a string literal of Rust, and the characters it stands for. -/
inductive Literal : Bytes → List Char → Prop
  | nil : Literal [] []
  /-- A character stands for itself, except the quote, the backslash and control characters. -/
  | plain {c t cs} (hq : c ≠ '"') (hb : c ≠ '\\') (hp : 0x20 ≤ c.toNat) (hd : c.toNat ≠ 0x7F) (h : Literal t cs) :
    Literal (String.utf8EncodeChar c ++ t) (c :: cs)
  | escape {x c t cs} (he : (x, c) ∈ [(b!"\\0", '\x00'), (b!"\\t", '\t'), (b!"\\r", '\r'), (b!"\\n", '\n'),
      (b!"\\\"", '"'), (b!"\\\\", '\\')]) (h : Literal t cs) : Literal (x ++ t) (c :: cs)
  | unicode {c t cs} (h : Literal t cs) : Literal (b!"\\u{" ++ hexDigits c.toNat ++ b!"}" ++ t) (c :: cs)

/-! ### Durations -/

/-- The unit in which a duration of so many nanoseconds is written (as a power of ten), and its name. -/
def unitOf (nanos : Nat) : Nat × Bytes :=
  if 10 ^ 9 ≤ nanos then (9, b!"s") else if 10 ^ 6 ≤ nanos then (6, b!"ms")
  else if 10 ^ 3 ≤ nanos then (3, b!"µs") else (0, b!"ns")

/-- How a duration is written: as a decimal fraction, exactly, without superfluous zeros. -/
inductive ShowsDuration (nanos : Nat) : Bytes → Prop
  | whole (k : Nat) (unit : Bytes) (hu : unitOf nanos = (k, unit)) (h : nanos % 10 ^ k = 0) :
    ShowsDuration nanos (showNat (nanos / 10 ^ k) ++ unit)
  | fraction (k : Nat) (unit : Bytes) (hu : unitOf nanos = (k, unit)) (w f : Nat) (hw : w ≤ k)
      (h : nanos % 10 ^ k = f * 10 ^ (k - w)) (h0 : f % 10 ≠ 0) :
    ShowsDuration nanos (showNat (nanos / 10 ^ k) ++ b!"." ++ digitsOf w f ++ unit)

/-! ### Messages -/

/-- The name of the type of a message (src/msg.rs:40-94). -/
def Kind.name : Kind → Bytes
  | .clearChat => b!"ClearChat"
  | .clearMsg => b!"ClearMsg"
  | .globalUserState => b!"GlobalUserState"
  | .join => b!"Join"
  | .notice => b!"Notice"
  | .part => b!"Part"
  | .ping => b!"Ping"
  | .pong => b!"Pong"
  | .privmsg => b!"Privmsg"
  | .roomState => b!"RoomState"
  | .userNotice => b!"UserNotice"
  | .userState => b!"UserState"
  | .whisper => b!"Whisper"

/-- The structs. -/
def structTypes : List Bytes := [b!"ClearChat", b!"ClearMsg", b!"GlobalUserState", b!"Join", b!"Notice", b!"Part",
  b!"Ping", b!"Pong", b!"Privmsg", b!"RoomState", b!"UserNotice", b!"UserState", b!"Whisper", b!"User", b!"Reply",
  b!"PinnedChat", b!"SubGiftPromo", b!"Subscriber", b!"BadgeData", b!"Ban", b!"TimeOut", b!"SubOrResub", b!"Raid",
  b!"SubGift", b!"SubMysteryGift", b!"AnonSubMysteryGift", b!"GiftPaidUpgrade", b!"AnonGiftPaidUpgrade", b!"Ritual",
  b!"BitsBadgeTier", b!"Announcement"]

/-- The type of a field of a struct, if it is not a string, a number or a flag.  For a list, the type of its items; for
an optional field, the type of what may be there. -/
def typeOf (type label : Bytes) : Bytes :=
  if label = b!"sender" then (if type = b!"ClearMsg" then [] else b!"User")
  else if label = b!"recipient" then (if type = b!"Whisper" then [] else b!"User")
  else if label = b!"reply_to" then b!"Reply"
  else if label = b!"pinned_chat" then b!"PinnedChat"
  else if label = b!"promotion" then b!"SubGiftPromo"
  else if label = b!"badges" then b!"Badge"
  else if label = b!"action" then b!"Action"
  else if label = b!"event" then b!"Event"
  else if label = b!"followers_only" then b!"FollowersOnly"
  else if label = b!"paid_level" then b!"PinnedChatLevel"
  else if label = b!"timestamp" then b!"DateTime"
  else if label = b!"duration" ∨ label = b!"slow" then b!"Duration"
  else []

/-- The optional fields of a struct. -/
def optionalIn (type : Bytes) : List Bytes :=
  if type = b!"Privmsg" then [b!"msg_id", b!"reply_to", b!"pinned_chat", b!"color", b!"custom_reward_id", b!"bits"]
  else if type = b!"UserNotice" then [b!"sender", b!"text", b!"system_message", b!"color"]
  else if type = b!"GlobalUserState" ∨ type = b!"UserState" ∨ type = b!"Whisper" then [b!"color"]
  else if type = b!"Notice" then [b!"channel", b!"id"]
  else if type = b!"Ping" ∨ type = b!"Pong" then [b!"nonce"]
  else if type = b!"RoomState" then [b!"emote_only", b!"followers_only", b!"r9k", b!"slow", b!"subs_only"]
  else if type = b!"BadgeData" then [b!"extra"]
  else if type = b!"SubOrResub" then [b!"streak_months"]
  else if type = b!"GiftPaidUpgrade" ∨ type = b!"AnonGiftPaidUpgrade" then [b!"promotion"]
  else []

/-- The variants of an enum. -/
def variantsOf (type : Bytes) : List Bytes :=
  if type = b!"Badge" then [b!"Staff", b!"Turbo", b!"Broadcaster", b!"Moderator", b!"Subscriber", b!"Other"]
  else if type = b!"Action" then [b!"Clear", b!"Ban", b!"TimeOut"]
  else if type = b!"Event" then [b!"SubOrResub", b!"Raid", b!"SubGift", b!"SubMysteryGift", b!"AnonSubMysteryGift",
    b!"GiftPaidUpgrade", b!"AnonGiftPaidUpgrade", b!"Ritual", b!"BitsBadgeTier", b!"Announcement", b!"Unknown"]
  else if type = b!"FollowersOnly" then [b!"Disabled", b!"Enabled"]
  else if type = b!"PinnedChatLevel" then [b!"ONE", b!"TWO", b!"THREE", b!"FOUR", b!"FIVE", b!"SIX", b!"SEVEN",
    b!"EIGHT", b!"NINE", b!"TEN"]
  else []

/-- The type of what a variant holds: it has the name of the variant, except for `Badge::Other` and for
`FollowersOnly::Enabled`, where the duration is optional. -/
def payloadOf (variant : Bytes) : Bytes :=
  if variant = b!"Other" then b!"BadgeData" else if variant = b!"Enabled" then b!"Duration" else variant

/-- How serialisation writes the name of a variant: in lower case, except for the levels of pinned chats. -/
def variantTag (type name : Bytes) : Bytes :=
  if type = b!"PinnedChatLevel" then name else name.map fun c => if 0x41 ≤ c ∧ c ≤ 0x5A then c + 32 else c

mutual
/-- `Tells .. type text v`: the printed text says of something of a type what the serialised form `v` says.  The type is
empty for strings, numbers and flags. -/
inductive Tells (esc : Nat → Bool) (alternate : Bool) (tc : TimeCodec) : Bytes → Bytes → Value → Prop
  | str (s : Bytes) : Tells esc alternate tc [] (debugStr esc s) (.str s)
  | flag (v : Bool) : Tells esc alternate tc [] (if v then b!"true" else b!"false") (.bool v)
  | num (n : Int) : Tells esc alternate tc [] (showInt n) (.num n)
  | time {text} (t : Timestamp) (h : ShowsTime t text) :
    Tells esc alternate tc (b!"DateTime") text (.str (tc.show_ t))
  | duration {text} (secs nanos : Nat) (hn : nanos < 1000000000) (h : ShowsDuration (secs * 1000000000 + nanos) text) :
    Tells esc alternate tc (b!"Duration") text (.map [(b!"secs", .num secs), (b!"nanos", .num nanos)])
  | list {ty texts vs} (h : TellsEach esc alternate tc ty texts vs) :
    Tells esc alternate tc ty (squares alternate texts) (.seq vs)
  | unit {ty name} (hn : name ∈ variantsOf ty) : Tells esc alternate tc ty name (.str (variantTag ty name))
  | variant {ty name text v} (hn : name ∈ variantsOf ty)
      (h : TellsMaybe esc alternate tc (name = b!"Enabled") (payloadOf name) text v) :
    Tells esc alternate tc ty (parens alternate name [text]) (.map [(variantTag ty name, v)])
  | struct {ty texts kvs} (hn : ty ∈ structTypes) (h : TellsFields esc alternate tc ty texts kvs) :
    Tells esc alternate tc ty (braces alternate ty texts) (.map kvs)
/-- The same for something that may (`opt`) be missing. -/
inductive TellsMaybe (esc : Nat → Bool) (alternate : Bool) (tc : TimeCodec) : Prop → Bytes → Bytes → Value → Prop
  | here {opt ty text v} (ho : ¬ opt) (h : Tells esc alternate tc ty text v) : TellsMaybe esc alternate tc opt ty text v
  | none {opt ty} (ho : opt) : TellsMaybe esc alternate tc opt ty (b!"None") .null
  | some {opt ty text v} (ho : opt) (h : Tells esc alternate tc ty text v) :
    TellsMaybe esc alternate tc opt ty (parens alternate (b!"Some") [text]) v
/-- One after the other. -/
inductive TellsEach (esc : Nat → Bool) (alternate : Bool) (tc : TimeCodec) : Bytes → List Bytes → List Value → Prop
  | nil {ty} : TellsEach esc alternate tc ty [] []
  | cons {ty text v texts vs} (h : Tells esc alternate tc ty text v) (hs : TellsEach esc alternate tc ty texts vs) :
    TellsEach esc alternate tc ty (text :: texts) (v :: vs)
/-- The same fields in the same order, with the exception of the number of months of a subscriber, which is printed last
and not serialised. -/
inductive TellsFields (esc : Nat → Bool) (alternate : Bool) (tc : TimeCodec) :
    Bytes → List Bytes → List (Bytes × Value) → Prop
  | nil {ty} (hn : ty ≠ b!"Subscriber") : TellsFields esc alternate tc ty [] []
  | months (n : Nat) : TellsFields esc alternate tc (b!"Subscriber") [b!"months_n: " ++ showNat n] []
  | cons {ty label text v texts kvs}
      (h : TellsMaybe esc alternate tc (label ∈ optionalIn ty) (typeOf ty label) text v)
      (hs : TellsFields esc alternate tc ty texts kvs) :
    TellsFields esc alternate tc ty ((label ++ b!": " ++ text) :: texts) ((label, v) :: kvs)
end

/-! ### Raw messages -/

/-- The name of a command (src/irc/command.rs:69-96). -/
def commandText (esc : Nat → Bool) (alternate : Bool) : Command → Bytes
  | .ping => b!"Ping"
  | .pong => b!"Pong"
  | .join => b!"Join"
  | .part => b!"Part"
  | .privmsg => b!"Privmsg"
  | .whisper => b!"Whisper"
  | .clearChat => b!"ClearChat"
  | .clearMsg => b!"ClearMsg"
  | .globalUserState => b!"GlobalUserState"
  | .notice => b!"Notice"
  | .reconnect => b!"Reconnect"
  | .roomState => b!"RoomState"
  | .userNotice => b!"UserNotice"
  | .userState => b!"UserState"
  | .capability => b!"Capability"
  | .rplWelcome => b!"RplWelcome"
  | .rplYourHost => b!"RplYourHost"
  | .rplCreated => b!"RplCreated"
  | .rplMyInfo => b!"RplMyInfo"
  | .rplNames => b!"RplNames"
  | .rplEndOfNames => b!"RplEndOfNames"
  | .rplMotd => b!"RplMotd"
  | .rplMotdStart => b!"RplMotdStart"
  | .rplEndOfMotd => b!"RplEndOfMotd"
  | .other s => parens alternate (b!"Other") [debugStr esc s]

/-- The text of a raw message with these parts. -/
def rawText (esc : Nat → Bool) (alternate : Bool) (name : Bytes) (tags : List (Bytes × Bytes)) (pfx : Option Prefix)
    (command : Command) (channel params : Option Bytes) : Bytes :=
  braces alternate name [
    b!"tags: " ++ squares alternate (tags.map fun kv => parens alternate [] [debugStr esc kv.1, debugStr esc kv.2]),
    b!"prefix: " ++ optionally alternate (fun p : Prefix => braces alternate (b!"Prefix") [
      b!"nick: " ++ optionally alternate (debugStr esc) p.nick,
      b!"user: " ++ optionally alternate (debugStr esc) p.user,
      b!"host: " ++ debugStr esc p.host]) pfx,
    b!"command: " ++ commandText esc alternate command,
    b!"channel: " ++ optionally alternate (debugStr esc) channel,
    b!"params: " ++ optionally alternate (debugStr esc) params]

end Tmi.Spec
