/-
Conformance with the outputs recorded in the repository (`Privmsg`).

Each file of /repo/src/msg/snapshots holds a line that a test of the project parses and what `{:#?}` printed of the
result.  The examples check that the model prints the same.  They are generated from these files; the parts of the code that are executed are the
parser of the raw message, the parser of the typed message and `Debug`.
-/
import Verif.Conform.Basic

namespace Tmi.Conform
open Tmi.Model

/-- src/msg/snapshots/tmi__msg__privmsg__tests__parse_privmsg_action_and_badges.snap -/
example : Prints Privmsg.parse Privmsg.dbg
  (b!"@badge-info=subscriber/22;badges=moderator/1,subscriber/12;color=#19E6E6;display-name=rand" ++
   b!"ers;emotes=;flags=;id=d831d848-b7c7-4559-ae3a-2cb88f4dbfed;mod=1;room-id=11148817;subscrib" ++
   b!"er=1;tmi-sent-ts=1594555275886;turbo=0;user-id=40286300;user-type=mod :randers!randers@ran" ++
   b!"ders.tmi.twitch.tv PRIVMSG #pajlada :\x01ACTION -tags\x01")
  (b!"Privmsg {\n" ++
   b!"    channel: \"#pajlada\",\n" ++
   b!"    channel_id: \"11148817\",\n" ++
   b!"    msg_id: None,\n" ++
   b!"    id: \"d831d848-b7c7-4559-ae3a-2cb88f4dbfed\",\n" ++
   b!"    sender: User {\n" ++
   b!"        id: \"40286300\",\n" ++
   b!"        login: \"randers\",\n" ++
   b!"        name: \"randers\",\n" ++
   b!"    },\n" ++
   b!"    reply_to: None,\n" ++
   b!"    pinned_chat: None,\n" ++
   b!"    text: \"-tags\",\n" ++
   b!"    is_action: true,\n" ++
   b!"    badges: [\n" ++
   b!"        Moderator,\n" ++
   b!"        Subscriber(\n" ++
   b!"            Subscriber {\n" ++
   b!"                version: \"12\",\n" ++
   b!"                months: \"22\",\n" ++
   b!"                months_n: 22,\n" ++
   b!"            },\n" ++
   b!"        ),\n" ++
   b!"    ],\n" ++
   b!"    color: Some(\n" ++
   b!"        \"#19E6E6\",\n" ++
   b!"    ),\n" ++
   b!"    custom_reward_id: None,\n" ++
   b!"    bits: None,\n" ++
   b!"    emotes: \"\",\n" ++
   b!"    timestamp: 2020-07-12T12:01:15.886Z,\n" ++
   b!"}") := by
  decide +kernel

/-- src/msg/snapshots/tmi__msg__privmsg__tests__parse_privmsg_basic_example.snap -/
example : Prints Privmsg.parse Privmsg.dbg
  (b!"@badge-info=;badges=;color=#0000FF;display-name=JuN1oRRRR;emotes=;flags=;id=e9d998c3-36f1-" ++
   b!"430f-89ec-6b887c28af36;mod=0;room-id=11148817;subscriber=0;tmi-sent-ts=1594545155039;turbo" ++
   b!"=0;user-id=29803735;user-type= :jun1orrrr!jun1orrrr@jun1orrrr.tmi.twitch.tv PRIVMSG #pajla" ++
   b!"da :dank cam")
  (b!"Privmsg {\n" ++
   b!"    channel: \"#pajlada\",\n" ++
   b!"    channel_id: \"11148817\",\n" ++
   b!"    msg_id: None,\n" ++
   b!"    id: \"e9d998c3-36f1-430f-89ec-6b887c28af36\",\n" ++
   b!"    sender: User {\n" ++
   b!"        id: \"29803735\",\n" ++
   b!"        login: \"jun1orrrr\",\n" ++
   b!"        name: \"JuN1oRRRR\",\n" ++
   b!"    },\n" ++
   b!"    reply_to: None,\n" ++
   b!"    pinned_chat: None,\n" ++
   b!"    text: \"dank cam\",\n" ++
   b!"    is_action: false,\n" ++
   b!"    badges: [],\n" ++
   b!"    color: Some(\n" ++
   b!"        \"#0000FF\",\n" ++
   b!"    ),\n" ++
   b!"    custom_reward_id: None,\n" ++
   b!"    bits: None,\n" ++
   b!"    emotes: \"\",\n" ++
   b!"    timestamp: 2020-07-12T09:12:35.039Z,\n" ++
   b!"}") := by
  decide +kernel

/-- src/msg/snapshots/tmi__msg__privmsg__tests__parse_privmsg_custom_reward_id.snap -/
example : Prints Privmsg.parse Privmsg.dbg
  (b!"@badge-info=subscriber/1;badges=broadcaster/1,subscriber/0;color=#8A2BE2;custom-reward-id=" ++
   b!"be22f712-8fd9-426a-90df-c13eae6cc6dc;display-name=vesdeg;emotes=;first-msg=0;flags=;id=798" ++
   b!"28352-d979-4e49-bd5e-15c487d275e2;mod=0;returning-chatter=0;room-id=164774298;subscriber=1" ++
   b!";tmi-sent-ts=1709298826724;turbo=0;user-id=164774298;user-type= :vesdeg!vesdeg@vesdeg.tmi." ++
   b!"twitch.tv PRIVMSG #vesdeg :#00FF00")
  (b!"Privmsg {\n" ++
   b!"    channel: \"#vesdeg\",\n" ++
   b!"    channel_id: \"164774298\",\n" ++
   b!"    msg_id: None,\n" ++
   b!"    id: \"79828352-d979-4e49-bd5e-15c487d275e2\",\n" ++
   b!"    sender: User {\n" ++
   b!"        id: \"164774298\",\n" ++
   b!"        login: \"vesdeg\",\n" ++
   b!"        name: \"vesdeg\",\n" ++
   b!"    },\n" ++
   b!"    reply_to: None,\n" ++
   b!"    pinned_chat: None,\n" ++
   b!"    text: \"#00FF00\",\n" ++
   b!"    is_action: false,\n" ++
   b!"    badges: [\n" ++
   b!"        Broadcaster,\n" ++
   b!"        Subscriber(\n" ++
   b!"            Subscriber {\n" ++
   b!"                version: \"0\",\n" ++
   b!"                months: \"1\",\n" ++
   b!"                months_n: 1,\n" ++
   b!"            },\n" ++
   b!"        ),\n" ++
   b!"    ],\n" ++
   b!"    color: Some(\n" ++
   b!"        \"#8A2BE2\",\n" ++
   b!"    ),\n" ++
   b!"    custom_reward_id: Some(\n" ++
   b!"        \"be22f712-8fd9-426a-90df-c13eae6cc6dc\",\n" ++
   b!"    ),\n" ++
   b!"    bits: None,\n" ++
   b!"    emotes: \"\",\n" ++
   b!"    timestamp: 2024-03-01T13:13:46.724Z,\n" ++
   b!"}") := by
  decide +kernel

/-- src/msg/snapshots/tmi__msg__privmsg__tests__parse_privmsg_display_name_with_middle_space.snap -/
example : Prints Privmsg.parse Privmsg.dbg
  (b!"@badge-info=;badges=;color=;display-name=Riot\\sGames;emotes=;flags=;id=bdfa278e-11c4-484f-" ++
   b!"9491-0a61b16fab60;mod=1;room-id=36029255;subscriber=0;tmi-sent-ts=1593953876927;turbo=0;us" ++
   b!"er-id=36029255;user-type= :riotgames!riotgames@riotgames.tmi.twitch.tv PRIVMSG #riotgames " ++
   b!":test fake message")
  (b!"Privmsg {\n" ++
   b!"    channel: \"#riotgames\",\n" ++
   b!"    channel_id: \"36029255\",\n" ++
   b!"    msg_id: None,\n" ++
   b!"    id: \"bdfa278e-11c4-484f-9491-0a61b16fab60\",\n" ++
   b!"    sender: User {\n" ++
   b!"        id: \"36029255\",\n" ++
   b!"        login: \"riotgames\",\n" ++
   b!"        name: \"Riot\\\\sGames\",\n" ++
   b!"    },\n" ++
   b!"    reply_to: None,\n" ++
   b!"    pinned_chat: None,\n" ++
   b!"    text: \"test fake message\",\n" ++
   b!"    is_action: false,\n" ++
   b!"    badges: [],\n" ++
   b!"    color: None,\n" ++
   b!"    custom_reward_id: None,\n" ++
   b!"    bits: None,\n" ++
   b!"    emotes: \"\",\n" ++
   b!"    timestamp: 2020-07-05T12:57:56.927Z,\n" ++
   b!"}") := by
  decide +kernel

/-- src/msg/snapshots/tmi__msg__privmsg__tests__parse_privmsg_display_name_with_trailing_space.snap -/
example : Prints Privmsg.parse Privmsg.dbg
  (b!"@rm-received-ts=1594554085918;historical=1;badge-info=;badges=;client-nonce=815810609edecd" ++
   b!"f4537bd9586994182b;color=;display-name=CarvedTaleare\\s;emotes=;flags=;id=c9b941d9-a0ab-453" ++
   b!"4-9903-971768fcdf10;mod=0;room-id=22484632;subscriber=0;tmi-sent-ts=1594554085753;turbo=0;" ++
   b!"user-id=467684514;user-type= :carvedtaleare!carvedtaleare@carvedtaleare.tmi.twitch.tv PRIV" ++
   b!"MSG #forsen :NaM")
  (b!"Privmsg {\n" ++
   b!"    channel: \"#forsen\",\n" ++
   b!"    channel_id: \"22484632\",\n" ++
   b!"    msg_id: None,\n" ++
   b!"    id: \"c9b941d9-a0ab-4534-9903-971768fcdf10\",\n" ++
   b!"    sender: User {\n" ++
   b!"        id: \"467684514\",\n" ++
   b!"        login: \"carvedtaleare\",\n" ++
   b!"        name: \"CarvedTaleare\\\\s\",\n" ++
   b!"    },\n" ++
   b!"    reply_to: None,\n" ++
   b!"    pinned_chat: None,\n" ++
   b!"    text: \"NaM\",\n" ++
   b!"    is_action: false,\n" ++
   b!"    badges: [],\n" ++
   b!"    color: None,\n" ++
   b!"    custom_reward_id: None,\n" ++
   b!"    bits: None,\n" ++
   b!"    emotes: \"\",\n" ++
   b!"    timestamp: 2020-07-12T11:41:25.753Z,\n" ++
   b!"}") := by
  decide +kernel

/-- src/msg/snapshots/tmi__msg__privmsg__tests__parse_privmsg_emote_non_numeric_id.snap -/
example : Prints Privmsg.parse Privmsg.dbg
  (b!"@badge-info=;badges=;client-nonce=245b864d508a69a685e25104204bd31b;color=#FF144A;display-n" ++
   b!"ame=AvianArtworks;emote-only=1;emotes=300196486_TK:0-7;flags=;id=21194e0d-f0fa-4a8f-a14f-3" ++
   b!"cbe89366ad9;mod=0;room-id=11148817;subscriber=0;tmi-sent-ts=1594552113129;turbo=0;user-id=" ++
   b!"39565465;user-type= :avianartworks!avianartworks@avianartworks.tmi.twitch.tv PRIVMSG #pajl" ++
   b!"ada :pajaM_TK")
  (b!"Privmsg {\n" ++
   b!"    channel: \"#pajlada\",\n" ++
   b!"    channel_id: \"11148817\",\n" ++
   b!"    msg_id: None,\n" ++
   b!"    id: \"21194e0d-f0fa-4a8f-a14f-3cbe89366ad9\",\n" ++
   b!"    sender: User {\n" ++
   b!"        id: \"39565465\",\n" ++
   b!"        login: \"avianartworks\",\n" ++
   b!"        name: \"AvianArtworks\",\n" ++
   b!"    },\n" ++
   b!"    reply_to: None,\n" ++
   b!"    pinned_chat: None,\n" ++
   b!"    text: \"pajaM_TK\",\n" ++
   b!"    is_action: false,\n" ++
   b!"    badges: [],\n" ++
   b!"    color: Some(\n" ++
   b!"        \"#FF144A\",\n" ++
   b!"    ),\n" ++
   b!"    custom_reward_id: None,\n" ++
   b!"    bits: None,\n" ++
   b!"    emotes: \"300196486_TK:0-7\",\n" ++
   b!"    timestamp: 2020-07-12T11:08:33.129Z,\n" ++
   b!"}") := by
  decide +kernel

/-- src/msg/snapshots/tmi__msg__privmsg__tests__parse_privmsg_emotes_1.snap -/
example : Prints Privmsg.parse Privmsg.dbg
  (b!"@badge-info=;badges=moderator/1;client-nonce=fc4ebe0889105c8404a9be81cf9a9ad4;color=#FF000" ++
   b!"0;display-name=boring_nick;emotes=555555591:51-52/25:0-4,12-16,18-22/1902:6-10,29-33,35-39" ++
   b!"/1:45-46,48-49;first-msg=0;flags=;id=3d9540a0-04b6-4bea-baf9-9165b14160be;mod=1;returning-" ++
   b!"chatter=0;room-id=55203741;subscriber=0;tmi-sent-ts=1696093084212;turbo=0;user-id=11102475" ++
   b!"3;user-type=mod :boring_nick!boring_nick@boring_nick.tmi.twitch.tv PRIVMSG #moscowwbish :K" ++
   b!"appa Keepo Kappa Kappa test Keepo Keepo 123 :) :) :P")
  (b!"Privmsg {\n" ++
   b!"    channel: \"#moscowwbish\",\n" ++
   b!"    channel_id: \"55203741\",\n" ++
   b!"    msg_id: None,\n" ++
   b!"    id: \"3d9540a0-04b6-4bea-baf9-9165b14160be\",\n" ++
   b!"    sender: User {\n" ++
   b!"        id: \"111024753\",\n" ++
   b!"        login: \"boring_nick\",\n" ++
   b!"        name: \"boring_nick\",\n" ++
   b!"    },\n" ++
   b!"    reply_to: None,\n" ++
   b!"    pinned_chat: None,\n" ++
   b!"    text: \"Kappa Keepo Kappa Kappa test Keepo Keepo 123 :) :) :P\",\n" ++
   b!"    is_action: false,\n" ++
   b!"    badges: [\n" ++
   b!"        Moderator,\n" ++
   b!"    ],\n" ++
   b!"    color: Some(\n" ++
   b!"        \"#FF0000\",\n" ++
   b!"    ),\n" ++
   b!"    custom_reward_id: None,\n" ++
   b!"    bits: None,\n" ++
   b!"    emotes: \"555555591:51-52/25:0-4,12-16,18-22/1902:6-10,29-33,35-39/1:45-46,48-49\",\n" ++
   b!"    timestamp: 2023-09-30T16:58:04.212Z,\n" ++
   b!"}") := by
  decide +kernel

/-- src/msg/snapshots/tmi__msg__privmsg__tests__parse_privmsg_korean_display_name.snap -/
example : Prints Privmsg.parse Privmsg.dbg
  (b!"@badge-info=subscriber/35;badges=moderator/1,subscriber/3024;color=#FF0000;display-name=테스" ++
   b!"트계정420;emotes=;flags=;id=bdfa278e-11c4-484f-9491-0a61b16fab60;mod=1;room-id=11148817;subsc" ++
   b!"riber=1;tmi-sent-ts=1593953876927;turbo=0;user-id=117166826;user-type=mod :testaccount_420" ++
   b!"!testaccount_420@testaccount_420.tmi.twitch.tv PRIVMSG #pajlada :@asd")
  (b!"Privmsg {\n" ++
   b!"    channel: \"#pajlada\",\n" ++
   b!"    channel_id: \"11148817\",\n" ++
   b!"    msg_id: None,\n" ++
   b!"    id: \"bdfa278e-11c4-484f-9491-0a61b16fab60\",\n" ++
   b!"    sender: User {\n" ++
   b!"        id: \"117166826\",\n" ++
   b!"        login: \"testaccount_420\",\n" ++
   b!"        name: \"테스트계정420\",\n" ++
   b!"    },\n" ++
   b!"    reply_to: None,\n" ++
   b!"    pinned_chat: None,\n" ++
   b!"    text: \"@asd\",\n" ++
   b!"    is_action: false,\n" ++
   b!"    badges: [\n" ++
   b!"        Moderator,\n" ++
   b!"        Subscriber(\n" ++
   b!"            Subscriber {\n" ++
   b!"                version: \"3024\",\n" ++
   b!"                months: \"35\",\n" ++
   b!"                months_n: 35,\n" ++
   b!"            },\n" ++
   b!"        ),\n" ++
   b!"    ],\n" ++
   b!"    color: Some(\n" ++
   b!"        \"#FF0000\",\n" ++
   b!"    ),\n" ++
   b!"    custom_reward_id: None,\n" ++
   b!"    bits: None,\n" ++
   b!"    emotes: \"\",\n" ++
   b!"    timestamp: 2020-07-05T12:57:56.927Z,\n" ++
   b!"}") := by
  decide +kernel

/-- src/msg/snapshots/tmi__msg__privmsg__tests__parse_privmsg_message_with_bits.snap -/
example : Prints Privmsg.parse Privmsg.dbg
  (b!"@badge-info=;badges=bits/100;bits=1;color=#004B49;display-name=TETYYS;emotes=;flags=;id=d7" ++
   b!"f03a35-f339-41ca-b4d4-7c0721438570;mod=0;room-id=11148817;subscriber=0;tmi-sent-ts=1594571" ++
   b!"566672;turbo=0;user-id=36175310;user-type= :tetyys!tetyys@tetyys.tmi.twitch.tv PRIVMSG #pa" ++
   b!"jlada :trihard1")
  (b!"Privmsg {\n" ++
   b!"    channel: \"#pajlada\",\n" ++
   b!"    channel_id: \"11148817\",\n" ++
   b!"    msg_id: None,\n" ++
   b!"    id: \"d7f03a35-f339-41ca-b4d4-7c0721438570\",\n" ++
   b!"    sender: User {\n" ++
   b!"        id: \"36175310\",\n" ++
   b!"        login: \"tetyys\",\n" ++
   b!"        name: \"TETYYS\",\n" ++
   b!"    },\n" ++
   b!"    reply_to: None,\n" ++
   b!"    pinned_chat: None,\n" ++
   b!"    text: \"trihard1\",\n" ++
   b!"    is_action: false,\n" ++
   b!"    badges: [\n" ++
   b!"        Other(\n" ++
   b!"            BadgeData {\n" ++
   b!"                name: \"bits\",\n" ++
   b!"                version: \"100\",\n" ++
   b!"                extra: None,\n" ++
   b!"            },\n" ++
   b!"        ),\n" ++
   b!"    ],\n" ++
   b!"    color: Some(\n" ++
   b!"        \"#004B49\",\n" ++
   b!"    ),\n" ++
   b!"    custom_reward_id: None,\n" ++
   b!"    bits: Some(\n" ++
   b!"        1,\n" ++
   b!"    ),\n" ++
   b!"    emotes: \"\",\n" ++
   b!"    timestamp: 2020-07-12T16:32:46.672Z,\n" ++
   b!"}") := by
  decide +kernel

/-- src/msg/snapshots/tmi__msg__privmsg__tests__parse_privmsg_pinned_chat.snap -/
example : Prints Privmsg.parse Privmsg.dbg
  (b!"@badge-info=;badges=glhf-pledge/1;color=;display-name=pajlada;emotes=;first-msg=0;flags=;i" ++
   b!"d=f6fb34f8-562f-4b4d-b628-32113d0ef4b0;mod=0;pinned-chat-paid-amount=200;pinned-chat-paid-" ++
   b!"canonical-amount=200;pinned-chat-paid-currency=USD;pinned-chat-paid-exponent=2;pinned-chat" ++
   b!"-paid-is-system-message=0;pinned-chat-paid-level=ONE;returning-chatter=0;room-id=12345678;" ++
   b!"subscriber=0;tmi-sent-ts=1687471984306;turbo=0;user-id=12345678;user-type= :pajlada!pajlad" ++
   b!"a@pajlada.tmi.twitch.tv PRIVMSG #channel :This is a pinned message")
  (b!"Privmsg {\n" ++
   b!"    channel: \"#channel\",\n" ++
   b!"    channel_id: \"12345678\",\n" ++
   b!"    msg_id: None,\n" ++
   b!"    id: \"f6fb34f8-562f-4b4d-b628-32113d0ef4b0\",\n" ++
   b!"    sender: User {\n" ++
   b!"        id: \"12345678\",\n" ++
   b!"        login: \"pajlada\",\n" ++
   b!"        name: \"pajlada\",\n" ++
   b!"    },\n" ++
   b!"    reply_to: None,\n" ++
   b!"    pinned_chat: Some(\n" ++
   b!"        PinnedChat {\n" ++
   b!"            paid_amount: 200,\n" ++
   b!"            paid_currency: \"USD\",\n" ++
   b!"            paid_exponent: 2,\n" ++
   b!"            paid_level: ONE,\n" ++
   b!"            is_system_message: false,\n" ++
   b!"        },\n" ++
   b!"    ),\n" ++
   b!"    text: \"This is a pinned message\",\n" ++
   b!"    is_action: false,\n" ++
   b!"    badges: [\n" ++
   b!"        Other(\n" ++
   b!"            BadgeData {\n" ++
   b!"                name: \"glhf-pledge\",\n" ++
   b!"                version: \"1\",\n" ++
   b!"                extra: None,\n" ++
   b!"            },\n" ++
   b!"        ),\n" ++
   b!"    ],\n" ++
   b!"    color: None,\n" ++
   b!"    custom_reward_id: None,\n" ++
   b!"    bits: None,\n" ++
   b!"    emotes: \"\",\n" ++
   b!"    timestamp: 2023-06-22T22:13:04.306Z,\n" ++
   b!"}") := by
  decide +kernel

/-- src/msg/snapshots/tmi__msg__privmsg__tests__parse_privmsg_reply_parent_included.snap -/
example : Prints Privmsg.parse Privmsg.dbg
  (b!"@badge-info=;badges=;client-nonce=cd56193132f934ac71b4d5ac488d4bd6;color=;display-name=Lef" ++
   b!"tSwing;emotes=;first-msg=0;flags=;id=5b4f63a9-776f-4fce-bf3c-d9707f52e32d;mod=0;reply-pare" ++
   b!"nt-display-name=Retoon;reply-parent-msg-body=hello;reply-parent-msg-id=6b13e51b-7ecb-43b5-" ++
   b!"ba5b-2bb5288df696;reply-parent-user-id=37940952;reply-parent-user-login=retoon;reply-threa" ++
   b!"d-parent-msg-id=6b13e51b-7ecb-43b5-ba5b-2bb5288df696;reply-thread-parent-user-login=retoon" ++
   b!";returning-chatter=0;room-id=37940952;subscriber=0;tmi-sent-ts=1673925983585;turbo=0;user-" ++
   b!"id=133651738;user-type= :leftswing!leftswing@leftswing.tmi.twitch.tv PRIVMSG #retoon :@Ret" ++
   b!"oon yes")
  (b!"Privmsg {\n" ++
   b!"    channel: \"#retoon\",\n" ++
   b!"    channel_id: \"37940952\",\n" ++
   b!"    msg_id: None,\n" ++
   b!"    id: \"5b4f63a9-776f-4fce-bf3c-d9707f52e32d\",\n" ++
   b!"    sender: User {\n" ++
   b!"        id: \"133651738\",\n" ++
   b!"        login: \"leftswing\",\n" ++
   b!"        name: \"LeftSwing\",\n" ++
   b!"    },\n" ++
   b!"    reply_to: Some(\n" ++
   b!"        Reply {\n" ++
   b!"            thread_parent_message_id: \"6b13e51b-7ecb-43b5-ba5b-2bb5288df696\",\n" ++
   b!"            thread_parent_user_login: \"retoon\",\n" ++
   b!"            message_id: \"6b13e51b-7ecb-43b5-ba5b-2bb5288df696\",\n" ++
   b!"            sender: User {\n" ++
   b!"                id: \"37940952\",\n" ++
   b!"                login: \"retoon\",\n" ++
   b!"                name: \"Retoon\",\n" ++
   b!"            },\n" ++
   b!"            text: \"hello\",\n" ++
   b!"        },\n" ++
   b!"    ),\n" ++
   b!"    pinned_chat: None,\n" ++
   b!"    text: \"@Retoon yes\",\n" ++
   b!"    is_action: false,\n" ++
   b!"    badges: [],\n" ++
   b!"    color: None,\n" ++
   b!"    custom_reward_id: None,\n" ++
   b!"    bits: None,\n" ++
   b!"    emotes: \"\",\n" ++
   b!"    timestamp: 2023-01-17T03:26:23.585Z,\n" ++
   b!"}") := by
  decide +kernel

end Tmi.Conform
