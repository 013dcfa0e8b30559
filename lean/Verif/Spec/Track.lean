/-
What is the case in the channels of a server, how that changes, what the server says about it, and a program that keeps
track of it.
https://dev.twitch.tv/docs/chat/irc
-/
import Verif.Spec.Happen

namespace Tmi.Spec
open Tmi.Model

deriving instance DecidableEq for Followers

/-! ## The server -/

/-- A message that can be seen in a channel. -/
structure Post where
  id : Bytes
  /-- the id of its author -/
  author : Bytes
  text : Bytes
  /-- was it written with `/me`? -/
  action : Bool
deriving DecidableEq, Repr

/-- The settings of a channel. -/
structure Rules where
  emoteOnly : Bool
  followers : Followers
  unique : Bool
  /-- seconds between messages -/
  slow : Nat
  subsOnly : Bool

/-- A channel. -/
structure Room where
  /-- the messages that can be seen, oldest first -/
  posts : List Post
  /-- the login names of the members -/
  members : Bytes → Bool
  rules : Rules

/-- All channels, by their names (without `#`). -/
abbrev Rooms := Bytes → Room

/-- A change of one entry. -/
def change {α : Type} (f : Bytes → α) (k : Bytes) (g : α → α) : Bytes → α := fun k' => if k' = k then g (f k) else f k'

/-- What somebody can do. -/
inductive Move where
  | write (c : Chat)
  /-- a moderator removes all messages -/
  | clear (p : Place)
  /-- a moderator bans a user -/
  | ban (p : Place) (user userId : Bytes)
  /-- a moderator bans a user for some time -/
  | timeOut (p : Place) (user userId : Bytes) (seconds : Nat)
  /-- a moderator deletes a message -/
  | delete (p : Place) (author id text : Bytes) (action : Bool)
  | enter (login channel : Bytes)
  | leave (login channel : Bytes)
  /-- a moderator changes the settings -/
  | setRules (channel channelId : Bytes) (r : Rules)
  /-- the client has joined the channel: the server tells it all settings -/
  | tellRules (channel channelId : Bytes)
  /-- anything else that the server says -/
  | other (s : Notified)

/-- What is the case afterwards. -/
def Rooms.after (rooms : Rooms) : Move → Rooms
  | .write c => change rooms c.channel fun r => { r with posts := r.posts ++ [⟨c.id, c.userId, c.text, c.action⟩] }
  | .clear p => change rooms p.channel fun r => { r with posts := [] }
  | .ban p _ userId => change rooms p.channel fun r => { r with posts := r.posts.filter (·.author ≠ userId) }
  | .timeOut p _ userId _ => change rooms p.channel fun r => { r with posts := r.posts.filter (·.author ≠ userId) }
  | .delete p _ id _ _ => change rooms p.channel fun r => { r with posts := r.posts.filter (·.id ≠ id) }
  | .enter login channel => change rooms channel fun r => { r with members := change r.members login fun _ => true }
  | .leave login channel => change rooms channel fun r => { r with members := change r.members login fun _ => false }
  | .setRules channel _ rules => change rooms channel fun r => { r with rules := rules }
  | .tellRules _ _ => rooms
  | .other _ => rooms

/-- The new value, if it is new. -/
def ifNew {α : Type} [DecidableEq α] (old new : α) : Option α := if new = old then none else some new

/-- What the server says about it: of the settings only those that have changed. -/
def Rooms.says (rooms : Rooms) : Move → Spoken
  | .write c => .said (.chat c)
  | .clear p => .said (.cleared p)
  | .ban p user userId => .said (.banned p user userId)
  | .timeOut p user userId n => .said (.timedOut p user userId n)
  | .delete p author id text action => .said (.deleted p author id text action)
  | .enter login channel => .said (.joined login channel)
  | .leave login channel => .said (.parted login channel)
  | .setRules channel channelId r =>
    let old := (rooms channel).rules
    .notified (.settings ⟨channel, channelId, ifNew old.emoteOnly r.emoteOnly, ifNew old.followers r.followers,
      ifNew old.unique r.unique, ifNew old.slow r.slow, ifNew old.subsOnly r.subsOnly⟩)
  | .tellRules channel channelId =>
    let r := (rooms channel).rules
    .notified (.settings ⟨channel, channelId, some r.emoteOnly, some r.followers, some r.unique, some r.slow, some r.subsOnly⟩)
  | .other s => .notified s

/-- Nothing else that the server says is about settings. -/
def Move.Ok : Move → Prop
  | .other (.settings _) => False
  | _ => True

/-- What is the case after all of it. -/
def Rooms.afterAll (rooms : Rooms) (ds : List Move) : Rooms := ds.foldl Rooms.after rooms

/-- All that the server says, in order. -/
def Rooms.saysAll : Rooms → List Move → List Spoken
  | _, [] => []
  | rooms, d :: ds => rooms.says d :: Rooms.saysAll (rooms.after d) ds

/-! ## A program -/

/-- What a program knows about the settings of a channel, as the getters of `RoomState` give them. -/
structure KnownRules where
  emoteOnly : Option Bool
  followersOnly : Option FollowersOnly
  r9k : Option Bool
  /-- in nanoseconds -/
  slow : Option Nat
  subsOnly : Option Bool
deriving DecidableEq, Repr

/-- What a program knows about a channel. -/
structure RoomNotes where
  posts : List Post
  members : Bytes → Bool
  rules : KnownRules

/-- The program: it looks at each typed message with the getters, and keeps what it knows up to date.  Channels are named
as the getters name them. -/
def note (k : Bytes → RoomNotes) : Message → Bytes → RoomNotes
  | .privmsg p => change k (Getter.Privmsg.channel p) fun r =>
    { r with posts := r.posts ++ [⟨Getter.Privmsg.id p, Getter.User.id (Getter.Privmsg.sender p), Getter.Privmsg.text p,
        Getter.Privmsg.isAction p⟩] }
  | .clearChat v => change k (Getter.ClearChat.channel v) fun r =>
    { r with posts := match Getter.ClearChat.action v with
        | .clear => []
        | .ban _ id => r.posts.filter (·.author ≠ id)
        | .timeOut _ id _ => r.posts.filter (·.author ≠ id) }
  | .clearMsg v => change k (Getter.ClearMsg.channel v) fun r =>
    { r with posts := r.posts.filter (·.id ≠ Getter.ClearMsg.targetMessageId v) }
  | .join v => change k (Getter.Join.channel v) fun r => { r with members := change r.members (Getter.Join.user v) fun _ => true }
  | .part v => change k (Getter.Part.channel v) fun r => { r with members := change r.members (Getter.Part.user v) fun _ => false }
  | .roomState v => change k (Getter.RoomState.channel v) fun r =>
    { r with rules :=
      { emoteOnly := (Getter.RoomState.emoteOnly v).or r.rules.emoteOnly
        followersOnly := (Getter.RoomState.followersOnly v).or r.rules.followersOnly
        r9k := (Getter.RoomState.r9k v).or r.rules.r9k
        slow := (Getter.RoomState.slow v).or r.rules.slow
        subsOnly := (Getter.RoomState.subsOnly v).or r.rules.subsOnly } }
  | _ => k

/-- The program at work on what `recv` returned. -/
def noteAll (k : Bytes → RoomNotes) (ms : List MsgOwned) : Bytes → RoomNotes :=
  ms.foldl (fun k m => match m.asTyped with
    | .ok (some M) => note k M
    | _ => k) k

/-- The settings as a program knows them. -/
def Rules.known (r : Rules) : KnownRules :=
  { emoteOnly := some r.emoteOnly
    followersOnly := some r.followers.read
    r9k := some r.unique
    slow := some (r.slow * 1000000000)
    subsOnly := some r.subsOnly }

/-- Has the server told all settings of the channel? -/
def Move.tells (channel : Bytes) : Move → Bool
  | .tellRules c _ => c == channel
  | _ => false

end Tmi.Spec
