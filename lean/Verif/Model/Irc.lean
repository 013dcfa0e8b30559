/-
Model of src/irc.rs, src/irc/prefix.rs, src/irc/command.rs, src/irc/channel.rs, src/irc/params.rs.
-/
import Verif.Model.Tags
import Verif.Model.Tag

namespace Tmi.Model

/-! ### Prefix -/

/-- `RawPrefix` (src/irc/prefix.rs:3-8). -/
structure RawPrefix where
  nick : Option Span
  user : Option Span
  host : Span
deriving DecidableEq, Repr

/-- `Prefix` (src/irc/prefix.rs:26-34). -/
structure Prefix where
  nick : Option Bytes
  user : Option Bytes
  host : Bytes
deriving DecidableEq, Repr

/-- `option.map(|span| &src[span])`.  src/irc/prefix.rs:13-14, src/irc.rs:113, 121. -/
def optSlice (src : Bytes) : Option Span → R (Option Bytes)
  | none => .ok none
  | some sp => do return some (← sp.get src)

/-- `RawPrefix::get` (src/irc/prefix.rs:11-17). -/
def RawPrefix.get (src : Bytes) (p : RawPrefix) : R Prefix := do
  let nick ← optSlice src p.nick
  let user ← optSlice src p.user
  let host ← p.host.get src
  return ⟨nick, user, host⟩

/-- `Display for Prefix` (src/irc/prefix.rs:36-45). -/
def Prefix.display (p : Prefix) : Bytes :=
  match p.nick, p.user with
  | some nick, some user => nick ++ [BANG] ++ user ++ [AT] ++ p.host
  | some nick, none => nick ++ [AT] ++ p.host
  | none, none => p.host
  | none, some _ => []

/-- The `for i in start..bytes.len()` loop of src/irc/prefix.rs:64-85.  `rest` is `bytes[i..]`. -/
def prefixLoop (start : Nat) : (rest : Bytes) → (i hostStart : Nat) → (nick : Option Span) →
    (nickEnd : Option Nat) → (user : Option Span) → Option (RawPrefix × Nat)
  | [], _, _, _, _, _ => none
  | c :: rest, i, hostStart, nick, nickEnd, user =>
    if c = SP then some (⟨nick, user, Span.mk' hostStart i⟩, i + 1)
    else if c = AT then
      match nickEnd with
      | some ne => prefixLoop start rest (i + 1) (i + 1) nick nickEnd (some (Span.mk' (ne + 1) i))
      | none => prefixLoop start rest (i + 1) (i + 1) (some (Span.mk' start i)) nickEnd user
    else if c = BANG then
      prefixLoop start rest (i + 1) hostStart (some (Span.mk' start i)) (some i) user
    else prefixLoop start rest (i + 1) hostStart nick nickEnd user

/-- `prefix::parse` (src/irc/prefix.rs:49-88), returning the new value of `*pos`. -/
def parsePrefix (src : Bytes) (pos : Nat) : R (Option RawPrefix × Nat) := do
  let s ← strFrom src pos
  if !startsWith COLON s then return (none, pos)
  else
    let start := pos + 1
    match prefixLoop start (src.drop start) start start none none none with
    | some (p, pos') => return (some p, pos')
    | none => return (none, pos)

/-! ### Command -/

/-- `RawCommand` (src/irc/command.rs:6-32). -/
inductive RawCommand where
  | ping | pong | join | part | privmsg | whisper | clearchat | clearmsg | globalUserState | notice
  | reconnect | roomState | userNotice | userState | capability | rplWelcome | rplYourHost
  | rplCreated | rplMyInfo | rplNamReply | rplEndOfNames | rplMotd | rplMotdStart | rplEndOfMotd
  | other (span : Span)
deriving DecidableEq, Repr

/-- `Command` (src/irc/command.rs:69-121). -/
inductive Command where
  | ping | pong | join | part | privmsg | whisper | clearChat | clearMsg | globalUserState | notice
  | reconnect | roomState | userNotice | userState | capability | rplWelcome | rplYourHost
  | rplCreated | rplMyInfo | rplNames | rplEndOfNames | rplMotd | rplMotdStart | rplEndOfMotd
  | other (cmd : Bytes)
deriving DecidableEq, Repr

/-- `RawCommand::get` (src/irc/command.rs:36-64). -/
def RawCommand.get (src : Bytes) : RawCommand → R Command
  | .ping => .ok .ping
  | .pong => .ok .pong
  | .join => .ok .join
  | .part => .ok .part
  | .privmsg => .ok .privmsg
  | .whisper => .ok .whisper
  | .clearchat => .ok .clearChat
  | .clearmsg => .ok .clearMsg
  | .globalUserState => .ok .globalUserState
  | .notice => .ok .notice
  | .reconnect => .ok .reconnect
  | .roomState => .ok .roomState
  | .userNotice => .ok .userNotice
  | .userState => .ok .userState
  | .capability => .ok .capability
  | .rplWelcome => .ok .rplWelcome
  | .rplYourHost => .ok .rplYourHost
  | .rplCreated => .ok .rplCreated
  | .rplMyInfo => .ok .rplMyInfo
  | .rplNamReply => .ok .rplNames
  | .rplEndOfNames => .ok .rplEndOfNames
  | .rplMotd => .ok .rplMotd
  | .rplMotdStart => .ok .rplMotdStart
  | .rplEndOfMotd => .ok .rplEndOfMotd
  | .other span => do return .other (← span.get src)

/-- `Command::as_str` (src/irc/command.rs:131-160). -/
def Command.asStr : Command → Bytes
  | .ping => b!"PING"
  | .pong => b!"PONG"
  | .join => b!"JOIN"
  | .part => b!"PART"
  | .privmsg => b!"PRIVMSG"
  | .whisper => b!"WHISPER"
  | .clearChat => b!"CLEARCHAT"
  | .clearMsg => b!"CLEARMSG"
  | .globalUserState => b!"GLOBALUSERSTATE"
  | .notice => b!"NOTICE"
  | .reconnect => b!"RECONNECT"
  | .roomState => b!"ROOMSTATE"
  | .userNotice => b!"USERNOTICE"
  | .userState => b!"USERSTATE"
  | .capability => b!"CAP"
  | .rplWelcome => b!"001"
  | .rplYourHost => b!"002"
  | .rplCreated => b!"003"
  | .rplMyInfo => b!"004"
  | .rplNames => b!"353"
  | .rplEndOfNames => b!"366"
  | .rplMotd => b!"372"
  | .rplMotdStart => b!"375"
  | .rplEndOfMotd => b!"376"
  | .other cmd => cmd

/-- `Display for Command` (src/irc/command.rs:123-127). -/
def Command.display (c : Command) : Bytes := c.asStr

/-- The literal arms of the `match` in `command::parse` (src/irc/command.rs:178-201). -/
def commandTable : List (Bytes × RawCommand) := [
  (b!"PING", .ping),
  (b!"PONG", .pong),
  (b!"JOIN", .join),
  (b!"PART", .part),
  (b!"PRIVMSG", .privmsg),
  (b!"WHISPER", .whisper),
  (b!"CLEARCHAT", .clearchat),
  (b!"CLEARMSG", .clearmsg),
  (b!"GLOBALUSERSTATE", .globalUserState),
  (b!"NOTICE", .notice),
  (b!"RECONNECT", .reconnect),
  (b!"ROOMSTATE", .roomState),
  (b!"USERNOTICE", .userNotice),
  (b!"USERSTATE", .userState),
  (b!"CAP", .capability),
  (b!"001", .rplWelcome),
  (b!"002", .rplYourHost),
  (b!"003", .rplCreated),
  (b!"004", .rplMyInfo),
  (b!"353", .rplNamReply),
  (b!"366", .rplEndOfNames),
  (b!"372", .rplMotd),
  (b!"375", .rplMotdStart),
  (b!"376", .rplEndOfMotd)]

/-- `command::parse` (src/irc/command.rs:167-209). -/
def parseCommand (src : Bytes) (pos : Nat) : R (Option RawCommand × Nat) := do
  let s ← strFrom src pos
  let (stop, nextPos) :=
    match find SP s with
    | some n => (pos + n, pos + n + 1)
    | none => (src.length, src.length)
  let token ← strSlice src pos stop
  match commandTable.find? (fun row => row.1 == token) with
  | some row => return (some row.2, nextPos)
  | none =>
    if !token.isEmpty then return (some (.other (Span.mk' pos stop)), nextPos)
    else return (none, pos)

/-! ### Channel and params -/

/-- `channel::parse` (src/irc/channel.rs:5-24). -/
def parseChannel (src : Bytes) (pos : Nat) : R (Option Span × Nat) := do
  let s ← strFrom src pos
  if startsWith HASH s then
    let s' ← strFrom src pos
    match find SP s' with
    | some n => return (some (Span.mk' pos (pos + n)), pos + n + 1)
    | none => return (some (Span.mk' pos src.length), src.length)
  else return (none, pos)

/-- `params::parse` (src/irc/params.rs:4-10). -/
def parseParams (src : Bytes) (pos : Nat) : R (Option Span) := do
  let s ← strFrom src pos
  if !s.isEmpty then return some (Span.mk' pos src.length) else return none

/-! ### Messages -/

/-- `IrcMessageParts` (src/irc.rs:45-52). -/
structure Parts where
  tags : List TagPair
  prefix? : Option RawPrefix
  command : RawCommand
  channel : Option Span
  params : Option Span
deriving DecidableEq, Repr

/-- `IrcMessageRef` (src/irc.rs:39-43).  `checks` records the build's overflow checks, which the
accessors' `u32` additions depend on. -/
structure MsgRef where
  checks : Bool
  src : Bytes
  parts : Parts
deriving DecidableEq, Repr

/-- `IrcMessage` (src/irc.rs:182-185). -/
structure MsgOwned where
  checks : Bool
  src : Bytes
  parts : Parts
deriving DecidableEq, Repr

/-- `IrcMessageRef::parse` / `parse_inner` (src/irc.rs:56-80). -/
def MsgRef.parse (b : Build) (src : Bytes) : R (Option MsgRef) := do
  let (tags?, pos) ← parseTags b src 0
  let tags := tags?.getD []
  let (pfx, pos) ← parsePrefix src pos
  let (command?, pos) ← parseCommand src pos
  match command? with
  | none => return none
  | some command =>
    let (channel, pos) ← parseChannel src pos
    let params ← parseParams src pos
    return some ⟨b.checks, src, tags, pfx, command, channel, params⟩

/-- `str::split_whitespace` splits at characters with the Unicode property White_Space.  This is the
length of the whitespace character at the front of a UTF-8 string (0 if there is none):
U+0009..U+000D, U+0020, U+0085, U+00A0, U+1680, U+2000..U+200A, U+2028, U+2029, U+202F, U+205F,
U+3000.  Called at src/irc.rs:108 and 112. -/
def wsLen (s : Bytes) : Nat :=
  let a := s.getD 0 0
  let b := s.getD 1 0
  let c := s.getD 2 0
  if (0x09 ≤ a ∧ a ≤ 0x0D) ∨ a = 0x20 then 1
  else if a = 0xC2 ∧ (b = 0x85 ∨ b = 0xA0) then 2
  else if (a = 0xE1 ∧ b = 0x9A ∧ c = 0x80)
      ∨ (a = 0xE2 ∧ b = 0x80 ∧ ((0x80 ≤ c ∧ c ≤ 0x8A) ∨ c = 0xA8 ∨ c = 0xA9 ∨ c = 0xAF))
      ∨ (a = 0xE2 ∧ b = 0x81 ∧ c = 0x9F)
      ∨ (a = 0xE3 ∧ b = 0x80 ∧ c = 0x80) then 3
  else 0

/-- `str::split_whitespace`, collected.  `cur` is the current (reversed) word, `skip` the number of
bytes of a whitespace character still to be dropped.  Called at src/irc.rs:108 and 112. -/
def splitWsGo : Bytes → (skip : Nat) → (cur : Bytes) → List Bytes
  | [], _, cur => if cur.isEmpty then [] else [cur.reverse]
  | b :: t, skip, cur =>
    match skip with
    | k + 1 => splitWsGo t k cur
    | 0 =>
      match wsLen (b :: t) with
      | k + 1 => if cur.isEmpty then splitWsGo t k [] else cur.reverse :: splitWsGo t k []
      | 0 => splitWsGo t 0 (b :: cur)

/-- `str::split_whitespace`, as called at src/irc.rs:108 and 112. -/
def splitWhitespace (s : Bytes) : List Bytes := splitWsGo s 0 []

/-- `tags` (src/irc.rs:88-90), the whole iterator. -/
def MsgRef.tags (m : MsgRef) : R (List (Bytes × Bytes)) :=
  m.parts.tags.mapM fun p => p.get m.checks m.src

/-- `raw` (src/irc.rs:83-85) -/
def MsgRef.raw (m : MsgRef) : Bytes := m.src

/-- `prefix` (src/irc.rs:93-95) -/
def MsgRef.prefix? (m : MsgRef) : R (Option Prefix) :=
  match m.parts.prefix? with
  | none => .ok none
  | some p => do return some (← p.get m.src)

/-- `command` (src/irc.rs:98-100) -/
def MsgRef.command (m : MsgRef) : R Command := m.parts.command.get m.src

/-- `params` (src/irc.rs:120-122) -/
def MsgRef.params (m : MsgRef) : R (Option Bytes) := optSlice m.src m.parts.params

/-- `channel` (src/irc.rs:103-115) -/
def MsgRef.channel (m : MsgRef) : R (Option Bytes) := do
  match ← m.command with
  | .rplNames => return (← m.params).bind fun p => (splitWhitespace p)[2]?
  | .rplEndOfNames => return (← m.params).bind fun p => (splitWhitespace p)[1]?
  | _ => optSlice m.src m.parts.channel

/-- The `iter().find(..)` of `tag` (src/irc.rs:140-148). -/
def findTag (checks : Bool) (src key : Bytes) : List TagPair → R (Option TagPair)
  | [] => .ok none
  | p :: ps => do
    let k ← Span.get src (← p.key checks)
    if k == key then return some p else findTag checks src key ps

/-- `tag` (src/irc.rs:140-148) -/
def MsgRef.tag (m : MsgRef) (t : Tag) : R (Option Bytes) := do
  match ← findTag m.checks m.src t.asStr m.parts.tags with
  | none => return none
  | some p => return some (← Span.get m.src (← p.value m.checks))

/-- `text` (src/irc.rs:153-164) -/
def MsgRef.text (m : MsgRef) : R (Option Bytes) := do
  match m.parts.params with
  | some sp =>
    let params ← sp.get m.src
    match find COLON params with
    | some start => return some (← strFrom params (start + 1))
    | none => return some params
  | none => return none

/-- `IrcMessage::parse` (src/irc.rs:189-193).  `to_string` copies the string to a new address: the
build `b` carries the address of the copy. -/
def MsgOwned.parse (b : Build) (src : Bytes) : R (Option MsgOwned) := do
  match ← MsgRef.parse b src with
  | none => return none
  | some m => return some ⟨m.checks, src, m.parts⟩

/-- `raw` (src/irc.rs:196-198) -/
def MsgOwned.raw (m : MsgOwned) : Bytes := m.src

/-- `tags` (src/irc.rs:201-203) -/
def MsgOwned.tags (m : MsgOwned) : R (List (Bytes × Bytes)) :=
  m.parts.tags.mapM fun p => p.get m.checks m.src

/-- `prefix` (src/irc.rs:206-208) -/
def MsgOwned.prefix? (m : MsgOwned) : R (Option Prefix) :=
  match m.parts.prefix? with
  | none => .ok none
  | some p => do return some (← p.get m.src)

/-- `command` (src/irc.rs:211-213) -/
def MsgOwned.command (m : MsgOwned) : R Command := m.parts.command.get m.src

/-- `params` (src/irc.rs:233-235) -/
def MsgOwned.params (m : MsgOwned) : R (Option Bytes) := optSlice m.src m.parts.params

/-- `channel` (src/irc.rs:216-228) -/
def MsgOwned.channel (m : MsgOwned) : R (Option Bytes) := do
  match ← m.command with
  | .rplNames => return (← m.params).bind fun p => (splitWhitespace p)[2]?
  | .rplEndOfNames => return (← m.params).bind fun p => (splitWhitespace p)[1]?
  | _ => optSlice m.src m.parts.channel

/-- `tag` (src/irc.rs:253-261) -/
def MsgOwned.tag (m : MsgOwned) (t : Tag) : R (Option Bytes) := do
  match ← findTag m.checks m.src t.asStr m.parts.tags with
  | none => return none
  | some p => return some (← Span.get m.src (← p.value m.checks))

/-- `text` (src/irc.rs:264-272): unlike the borrowed version it returns `None` without a `:`. -/
def MsgOwned.text (m : MsgOwned) : R (Option Bytes) := do
  match ← m.params with
  | some params =>
    match find COLON params with
    | some start => return some (← strFrom params (start + 1))
    | none => return none
  | none => return none

/-- `IrcMessageRef::into_owned` (src/irc.rs:318-323) -/
def MsgRef.intoOwned (m : MsgRef) : MsgOwned := ⟨m.checks, m.src, m.parts⟩

/-- `IrcMessage::as_ref` (src/irc.rs:328-333) -/
def MsgOwned.asRef (m : MsgOwned) : MsgRef := ⟨m.checks, m.src, m.parts⟩

end Tmi.Model
