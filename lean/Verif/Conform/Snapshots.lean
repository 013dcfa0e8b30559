/-
Conformance with the outputs recorded in the repository (all types but `Privmsg` and `UserNotice`).

Each file of /repo/src/msg/snapshots holds a line that a test of the project parses and what `{:#?}` printed of the
result.  The examples check that the model prints the same.  They are generated from these files; the parts of the code that are executed are the
parser of the raw message, the parser of the typed message and `Debug`.
-/
import Verif.Conform.Basic

namespace Tmi.Conform
open Tmi.Model

/-- src/msg/snapshots/tmi__msg__clear_chat__tests__parse_clearchat_ban.snap -/
example : Prints ClearChat.parse ClearChat.dbg
  (b!"@room-id=11148817;target-user-id=70948394;tmi-sent-ts=1594561360331 :tmi.twitch.tv CLEARCH" ++
   b!"AT #pajlada :weeb123")
  (b!"ClearChat {\n" ++
   b!"    channel: \"#pajlada\",\n" ++
   b!"    channel_id: \"11148817\",\n" ++
   b!"    action: Ban(\n" ++
   b!"        Ban {\n" ++
   b!"            user: \"weeb123\",\n" ++
   b!"            id: \"70948394\",\n" ++
   b!"        },\n" ++
   b!"    ),\n" ++
   b!"    timestamp: 2020-07-12T13:42:40.331Z,\n" ++
   b!"}") := by
  decide +kernel

/-- src/msg/snapshots/tmi__msg__clear_chat__tests__parse_clearchat_clear.snap -/
example : Prints ClearChat.parse ClearChat.dbg
  (b!"@room-id=40286300;tmi-sent-ts=1594561392337 :tmi.twitch.tv CLEARCHAT #randers")
  (b!"ClearChat {\n" ++
   b!"    channel: \"#randers\",\n" ++
   b!"    channel_id: \"40286300\",\n" ++
   b!"    action: Clear,\n" ++
   b!"    timestamp: 2020-07-12T13:43:12.337Z,\n" ++
   b!"}") := by
  decide +kernel

/-- src/msg/snapshots/tmi__msg__clear_chat__tests__parse_clearchat_timeout.snap -/
example : Prints ClearChat.parse ClearChat.dbg
  (b!"@ban-duration=1;room-id=11148817;target-user-id=148973258;tmi-sent-ts=1594553828245 :tmi.t" ++
   b!"witch.tv CLEARCHAT #pajlada :fabzeef")
  (b!"ClearChat {\n" ++
   b!"    channel: \"#pajlada\",\n" ++
   b!"    channel_id: \"11148817\",\n" ++
   b!"    action: TimeOut(\n" ++
   b!"        TimeOut {\n" ++
   b!"            user: \"fabzeef\",\n" ++
   b!"            id: \"148973258\",\n" ++
   b!"            duration: 1s,\n" ++
   b!"        },\n" ++
   b!"    ),\n" ++
   b!"    timestamp: 2020-07-12T11:37:08.245Z,\n" ++
   b!"}") := by
  decide +kernel

/-- src/msg/snapshots/tmi__msg__clear_msg__tests__parse_clearmsg_action.snap -/
example : Prints ClearMsg.parse ClearMsg.dbg
  (b!"@login=alazymeme;room-id=;target-msg-id=3c92014f-340a-4dc3-a9c9-e5cf182f4a84;tmi-sent-ts=1" ++
   b!"594561955611 :tmi.twitch.tv CLEARMSG #pajlada :\x01ACTION lole\x01")
  (b!"ClearMsg {\n" ++
   b!"    channel: \"#pajlada\",\n" ++
   b!"    channel_id: \"\",\n" ++
   b!"    sender: \"alazymeme\",\n" ++
   b!"    target_message_id: \"3c92014f-340a-4dc3-a9c9-e5cf182f4a84\",\n" ++
   b!"    text: \"lole\",\n" ++
   b!"    is_action: true,\n" ++
   b!"    timestamp: 2020-07-12T13:52:35.611Z,\n" ++
   b!"}") := by
  decide +kernel

/-- src/msg/snapshots/tmi__msg__clear_msg__tests__parse_clearmsg_basic.snap -/
example : Prints ClearMsg.parse ClearMsg.dbg
  (b!"@login=alazymeme;room-id=;target-msg-id=3c92014f-340a-4dc3-a9c9-e5cf182f4a84;tmi-sent-ts=1" ++
   b!"594561955611 :tmi.twitch.tv CLEARMSG #pajlada :lole")
  (b!"ClearMsg {\n" ++
   b!"    channel: \"#pajlada\",\n" ++
   b!"    channel_id: \"\",\n" ++
   b!"    sender: \"alazymeme\",\n" ++
   b!"    target_message_id: \"3c92014f-340a-4dc3-a9c9-e5cf182f4a84\",\n" ++
   b!"    text: \"lole\",\n" ++
   b!"    is_action: false,\n" ++
   b!"    timestamp: 2020-07-12T13:52:35.611Z,\n" ++
   b!"}") := by
  decide +kernel

/-- src/msg/snapshots/tmi__msg__global_user_state__tests__parse_globaluserstate.snap -/
example : Prints GlobalUserState.parse GlobalUserState.dbg
  (b!"@badge-info=;badges=;color=;display-name=randers811;emote-sets=0;user-id=553170741;user-ty" ++
   b!"pe= :tmi.twitch.tv GLOBALUSERSTATE")
  (b!"GlobalUserState {\n" ++
   b!"    id: \"553170741\",\n" ++
   b!"    name: \"randers811\",\n" ++
   b!"    badges: [],\n" ++
   b!"    emote_sets: [\n" ++
   b!"        \"0\",\n" ++
   b!"    ],\n" ++
   b!"    color: None,\n" ++
   b!"}") := by
  decide +kernel

/-- src/msg/snapshots/tmi__msg__join__tests__parse_join.snap -/
example : Prints Join.parse Join.dbg
  (b!":randers811!randers811@randers811.tmi.twitch.tv JOIN #pajlada")
  (b!"Join {\n" ++
   b!"    channel: \"#pajlada\",\n" ++
   b!"    user: \"randers811\",\n" ++
   b!"}") := by
  decide +kernel

/-- src/msg/snapshots/tmi__msg__notice__tests__parse_notice_basic.snap -/
example : Prints Notice.parse Notice.dbg
  (b!"@msg-id=msg_banned :tmi.twitch.tv NOTICE #forsen :You are permanently banned from talking " ++
   b!"in forsen.")
  (b!"Notice {\n" ++
   b!"    channel: Some(\n" ++
   b!"        \"#forsen\",\n" ++
   b!"    ),\n" ++
   b!"    text: \"You are permanently banned from talking in forsen.\",\n" ++
   b!"    id: Some(\n" ++
   b!"        \"msg_banned\",\n" ++
   b!"    ),\n" ++
   b!"}") := by
  decide +kernel

/-- src/msg/snapshots/tmi__msg__notice__tests__parse_notice_before_login.snap -/
example : Prints Notice.parse Notice.dbg
  (b!":tmi.twitch.tv NOTICE * :Improperly formatted auth")
  (b!"Notice {\n" ++
   b!"    channel: None,\n" ++
   b!"    text: \"Improperly formatted auth\",\n" ++
   b!"    id: None,\n" ++
   b!"}") := by
  decide +kernel

/-- src/msg/snapshots/tmi__msg__part__tests__parse_join.snap -/
example : Prints Part.parse Part.dbg
  (b!":randers811!randers811@randers811.tmi.twitch.tv PART #pajlada")
  (b!"Part {\n" ++
   b!"    channel: \"#pajlada\",\n" ++
   b!"    user: \"randers811\",\n" ++
   b!"}") := by
  decide +kernel

/-- src/msg/snapshots/tmi__msg__ping__tests__parse_ping.snap -/
example : Prints Ping.parse Ping.dbg
  (b!":tmi.twitch.tv PING")
  (b!"Ping {\n" ++
   b!"    nonce: None,\n" ++
   b!"}") := by
  decide +kernel

/-- src/msg/snapshots/tmi__msg__ping__tests__parse_ping_nonce.snap -/
example : Prints Ping.parse Ping.dbg
  (b!":tmi.twitch.tv PING :nonce")
  (b!"Ping {\n" ++
   b!"    nonce: Some(\n" ++
   b!"        \"nonce\",\n" ++
   b!"    ),\n" ++
   b!"}") := by
  decide +kernel

/-- src/msg/snapshots/tmi__msg__pong__tests__parse_ping.snap -/
example : Prints Pong.parse Pong.dbg
  (b!":tmi.twitch.tv PONG")
  (b!"Pong {\n" ++
   b!"    nonce: None,\n" ++
   b!"}") := by
  decide +kernel

/-- src/msg/snapshots/tmi__msg__pong__tests__parse_ping_nonce.snap -/
example : Prints Pong.parse Pong.dbg
  (b!":tmi.twitch.tv PONG :nonce")
  (b!"Pong {\n" ++
   b!"    nonce: Some(\n" ++
   b!"        \"nonce\",\n" ++
   b!"    ),\n" ++
   b!"}") := by
  decide +kernel

/-- src/msg/snapshots/tmi__msg__room_state__tests__parse_room_state_basic_full.snap -/
example : Prints RoomState.parse RoomState.dbg
  (b!"@emote-only=0;followers-only=-1;r9k=0;rituals=0;room-id=40286300;slow=0;subs-only=0 :tmi.t" ++
   b!"witch.tv ROOMSTATE #randers")
  (b!"RoomState {\n" ++
   b!"    channel: \"#randers\",\n" ++
   b!"    channel_id: \"40286300\",\n" ++
   b!"    emote_only: Some(\n" ++
   b!"        false,\n" ++
   b!"    ),\n" ++
   b!"    followers_only: Some(\n" ++
   b!"        Disabled,\n" ++
   b!"    ),\n" ++
   b!"    r9k: Some(\n" ++
   b!"        false,\n" ++
   b!"    ),\n" ++
   b!"    slow: Some(\n" ++
   b!"        0ns,\n" ++
   b!"    ),\n" ++
   b!"    subs_only: Some(\n" ++
   b!"        false,\n" ++
   b!"    ),\n" ++
   b!"}") := by
  decide +kernel

/-- src/msg/snapshots/tmi__msg__room_state__tests__parse_room_state_basic_full2.snap -/
example : Prints RoomState.parse RoomState.dbg
  (b!"@emote-only=1;followers-only=0;r9k=1;rituals=0;room-id=40286300;slow=5;subs-only=1 :tmi.tw" ++
   b!"itch.tv ROOMSTATE #randers")
  (b!"RoomState {\n" ++
   b!"    channel: \"#randers\",\n" ++
   b!"    channel_id: \"40286300\",\n" ++
   b!"    emote_only: Some(\n" ++
   b!"        true,\n" ++
   b!"    ),\n" ++
   b!"    followers_only: Some(\n" ++
   b!"        Enabled(\n" ++
   b!"            None,\n" ++
   b!"        ),\n" ++
   b!"    ),\n" ++
   b!"    r9k: Some(\n" ++
   b!"        true,\n" ++
   b!"    ),\n" ++
   b!"    slow: Some(\n" ++
   b!"        5s,\n" ++
   b!"    ),\n" ++
   b!"    subs_only: Some(\n" ++
   b!"        true,\n" ++
   b!"    ),\n" ++
   b!"}") := by
  decide +kernel

/-- src/msg/snapshots/tmi__msg__room_state__tests__parse_room_state_followers_non_zero.snap -/
example : Prints RoomState.parse RoomState.dbg
  (b!"@emote-only=1;followers-only=10;r9k=1;rituals=0;room-id=40286300;slow=5;subs-only=1 :tmi.t" ++
   b!"witch.tv ROOMSTATE #randers")
  (b!"RoomState {\n" ++
   b!"    channel: \"#randers\",\n" ++
   b!"    channel_id: \"40286300\",\n" ++
   b!"    emote_only: Some(\n" ++
   b!"        true,\n" ++
   b!"    ),\n" ++
   b!"    followers_only: Some(\n" ++
   b!"        Enabled(\n" ++
   b!"            Some(\n" ++
   b!"                600s,\n" ++
   b!"            ),\n" ++
   b!"        ),\n" ++
   b!"    ),\n" ++
   b!"    r9k: Some(\n" ++
   b!"        true,\n" ++
   b!"    ),\n" ++
   b!"    slow: Some(\n" ++
   b!"        5s,\n" ++
   b!"    ),\n" ++
   b!"    subs_only: Some(\n" ++
   b!"        true,\n" ++
   b!"    ),\n" ++
   b!"}") := by
  decide +kernel

/-- src/msg/snapshots/tmi__msg__room_state__tests__parse_room_state_partial_1.snap -/
example : Prints RoomState.parse RoomState.dbg
  (b!"@room-id=40286300;slow=5 :tmi.twitch.tv ROOMSTATE #randers")
  (b!"RoomState {\n" ++
   b!"    channel: \"#randers\",\n" ++
   b!"    channel_id: \"40286300\",\n" ++
   b!"    emote_only: None,\n" ++
   b!"    followers_only: None,\n" ++
   b!"    r9k: None,\n" ++
   b!"    slow: Some(\n" ++
   b!"        5s,\n" ++
   b!"    ),\n" ++
   b!"    subs_only: None,\n" ++
   b!"}") := by
  decide +kernel

/-- src/msg/snapshots/tmi__msg__room_state__tests__parse_room_state_partial_2.snap -/
example : Prints RoomState.parse RoomState.dbg
  (b!"@emote-only=1;room-id=40286300 :tmi.twitch.tv ROOMSTATE #randers")
  (b!"RoomState {\n" ++
   b!"    channel: \"#randers\",\n" ++
   b!"    channel_id: \"40286300\",\n" ++
   b!"    emote_only: Some(\n" ++
   b!"        true,\n" ++
   b!"    ),\n" ++
   b!"    followers_only: None,\n" ++
   b!"    r9k: None,\n" ++
   b!"    slow: None,\n" ++
   b!"    subs_only: None,\n" ++
   b!"}") := by
  decide +kernel

/-- src/msg/snapshots/tmi__msg__user_state__tests__parse_userstate.snap -/
example : Prints UserState.parse UserState.dbg
  (b!"@badge-info=;badges=;color=#FF0000;display-name=TESTUSER;emote-sets=0;mod=0;subscriber=0;u" ++
   b!"ser-type= :tmi.twitch.tv USERSTATE #randers")
  (b!"UserState {\n" ++
   b!"    channel: \"#randers\",\n" ++
   b!"    user_name: \"TESTUSER\",\n" ++
   b!"    badges: [],\n" ++
   b!"    emote_sets: [\n" ++
   b!"        \"0\",\n" ++
   b!"    ],\n" ++
   b!"    color: Some(\n" ++
   b!"        \"#FF0000\",\n" ++
   b!"    ),\n" ++
   b!"}") := by
  decide +kernel

/-- src/msg/snapshots/tmi__msg__user_state__tests__parse_userstate_uuid_emote_set_id.snap -/
example : Prints UserState.parse UserState.dbg
  (b!"@badge-info=;badges=moderator/1;color=#8A2BE2;display-name=TESTUSER;emote-sets=0,75c09c7b-" ++
   b!"332a-43ec-8be8-1d4571706155;mod=1;subscriber=0;user-type=mod :tmi.twitch.tv USERSTATE #ran" ++
   b!"ders")
  (b!"UserState {\n" ++
   b!"    channel: \"#randers\",\n" ++
   b!"    user_name: \"TESTUSER\",\n" ++
   b!"    badges: [\n" ++
   b!"        Moderator,\n" ++
   b!"    ],\n" ++
   b!"    emote_sets: [\n" ++
   b!"        \"0\",\n" ++
   b!"        \"75c09c7b-332a-43ec-8be8-1d4571706155\",\n" ++
   b!"    ],\n" ++
   b!"    color: Some(\n" ++
   b!"        \"#8A2BE2\",\n" ++
   b!"    ),\n" ++
   b!"}") := by
  decide +kernel

/-- src/msg/snapshots/tmi__msg__whisper__tests__parse_whisper.snap -/
example : Prints Whisper.parse Whisper.dbg
  (b!"@badges=;color=#19E6E6;display-name=randers;emotes=25:22-26;message-id=1;thread-id=4028630" ++
   b!"0_553170741;turbo=0;user-id=40286300;user-type= :randers!randers@randers.tmi.twitch.tv WHI" ++
   b!"SPER randers811 :hello, this is a test Kappa")
  (b!"Whisper {\n" ++
   b!"    recipient: \"randers811\",\n" ++
   b!"    sender: User {\n" ++
   b!"        id: \"40286300\",\n" ++
   b!"        login: \"randers\",\n" ++
   b!"        name: \"randers\",\n" ++
   b!"    },\n" ++
   b!"    text: \"hello, this is a test Kappa\",\n" ++
   b!"    badges: [],\n" ++
   b!"    emotes: \"25:22-26\",\n" ++
   b!"    color: Some(\n" ++
   b!"        \"#19E6E6\",\n" ++
   b!"    ),\n" ++
   b!"}") := by
  decide +kernel

end Tmi.Conform
