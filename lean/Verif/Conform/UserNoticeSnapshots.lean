/-
Conformance with the outputs recorded in the repository (`UserNotice`).

Each file of /repo/src/msg/snapshots holds a line that a test of the project parses and what `{:#?}` printed of the
result.  The examples check that the model prints the same.  They are generated from these files; the parts of the code that are executed are the
parser of the raw message, the parser of the typed message and `Debug`.
-/
import Verif.Conform.Basic

namespace Tmi.Conform
open Tmi.Model

/-- src/msg/snapshots/tmi__msg__user_notice__tests__parse_anongiftpaidupgrade_with_promo.snap -/
example : Prints UserNotice.parse UserNotice.dbg
  (b!"@badge-info=subscriber/1;badges=subscriber/0,premium/1;color=#8A2BE2;display-name=samura1j" ++
   b!"ack_ttv;emotes=;flags=;id=144ee636-0c1d-404e-8b29-35449a045a7e;msg-param-promo-name=TestSu" ++
   b!"btember2020;msg-param-promo-gift-total=4003;login=samura1jack_ttv;mod=0;msg-id=anongiftpai" ++
   b!"dupgrade;room-id=71092938;subscriber=1;system-msg=samura1jack_ttv\\sis\\scontinuing\\sthe\\sGi" ++
   b!"ft\\sSub\\sthey\\sgot\\sfrom\\san\\sanonymous\\suser!\\sbla\\sbla\\sbla\\sstuff\\sabout\\spromo\\shere;t" ++
   b!"mi-sent-ts=1594327421732;user-id=102707709;user-type= :tmi.twitch.tv USERNOTICE #xqcow")
  (b!"UserNotice {\n" ++
   b!"    channel: \"#xqcow\",\n" ++
   b!"    channel_id: \"71092938\",\n" ++
   b!"    sender: None,\n" ++
   b!"    text: None,\n" ++
   b!"    system_message: Some(\n" ++
   b!"        \"samura1jack_ttv\\\\sis\\\\scontinuing\\\\sthe\\\\sGift\\\\sSub\\\\sthey\\\\sgot\\\\sfrom\\\\san\\\\sanonymous\\\\suser!\\\\sbla\\\\sbla\\\\sbla\\\\sstuff\\\\sabout\\\\spromo\\\\shere\",\n" ++
   b!"    ),\n" ++
   b!"    event: AnonGiftPaidUpgrade(\n" ++
   b!"        AnonGiftPaidUpgrade {\n" ++
   b!"            promotion: Some(\n" ++
   b!"                SubGiftPromo {\n" ++
   b!"                    total_gifts: 4003,\n" ++
   b!"                    promo_name: \"TestSubtember2020\",\n" ++
   b!"                },\n" ++
   b!"            ),\n" ++
   b!"        },\n" ++
   b!"    ),\n" ++
   b!"    event_id: \"anongiftpaidupgrade\",\n" ++
   b!"    badges: [\n" ++
   b!"        Subscriber(\n" ++
   b!"            Subscriber {\n" ++
   b!"                version: \"0\",\n" ++
   b!"                months: \"1\",\n" ++
   b!"                months_n: 1,\n" ++
   b!"            },\n" ++
   b!"        ),\n" ++
   b!"        Other(\n" ++
   b!"            BadgeData {\n" ++
   b!"                name: \"premium\",\n" ++
   b!"                version: \"1\",\n" ++
   b!"                extra: None,\n" ++
   b!"            },\n" ++
   b!"        ),\n" ++
   b!"    ],\n" ++
   b!"    emotes: \"\",\n" ++
   b!"    color: Some(\n" ++
   b!"        \"#8A2BE2\",\n" ++
   b!"    ),\n" ++
   b!"    message_id: \"144ee636-0c1d-404e-8b29-35449a045a7e\",\n" ++
   b!"    timestamp: 2020-07-09T20:43:41.732Z,\n" ++
   b!"}") := by
  decide +kernel

/-- src/msg/snapshots/tmi__msg__user_notice__tests__parse_anonsubgift.snap -/
example : Prints UserNotice.parse UserNotice.dbg
  (b!"@badge-info=;badges=;color=;display-name=xQcOW;emotes=;flags=;id=e21409b1-d25d-4a1a-b5cf-e" ++
   b!"f27d8b7030e;login=xqcow;mod=0;msg-id=anonsubgift;msg-param-gift-months=1;msg-param-months=" ++
   b!"2;msg-param-origin-id=da\\s39\\sa3\\see\\s5e\\s6b\\s4b\\s0d\\s32\\s55\\sbf\\sef\\s95\\s60\\s18\\s90\\saf\\s" ++
   b!"d8\\s07\\s09;msg-param-recipient-display-name=qatarking24xd;msg-param-recipient-id=236653628" ++
   b!";msg-param-recipient-user-name=qatarking24xd;msg-param-sender-count=0;msg-param-sub-plan-n" ++
   b!"ame=Channel\\sSubscription\\s(xqcow);msg-param-sub-plan=1000;room-id=71092938;subscriber=0;s" ++
   b!"ystem-msg=An\\sanonymous\\sgifter\\sgifted\\sa\\sTier\\s1\\ssub\\sto\\sqatarking24xd!;tmi-sent-ts=1" ++
   b!"594583782376;user-id=71092938;user-type= :tmi.twitch.tv USERNOTICE #xqcow")
  (b!"UserNotice {\n" ++
   b!"    channel: \"#xqcow\",\n" ++
   b!"    channel_id: \"71092938\",\n" ++
   b!"    sender: None,\n" ++
   b!"    text: None,\n" ++
   b!"    system_message: Some(\n" ++
   b!"        \"An\\\\sanonymous\\\\sgifter\\\\sgifted\\\\sa\\\\sTier\\\\s1\\\\ssub\\\\sto\\\\sqatarking24xd!\",\n" ++
   b!"    ),\n" ++
   b!"    event: SubGift(\n" ++
   b!"        SubGift {\n" ++
   b!"            cumulative_months: 2,\n" ++
   b!"            recipient: User {\n" ++
   b!"                id: \"236653628\",\n" ++
   b!"                login: \"qatarking24xd\",\n" ++
   b!"                name: \"qatarking24xd\",\n" ++
   b!"            },\n" ++
   b!"            sub_plan: \"1000\",\n" ++
   b!"            sub_plan_name: \"Channel\\\\sSubscription\\\\s(xqcow)\",\n" ++
   b!"            num_gifted_months: 1,\n" ++
   b!"        },\n" ++
   b!"    ),\n" ++
   b!"    event_id: \"anonsubgift\",\n" ++
   b!"    badges: [],\n" ++
   b!"    emotes: \"\",\n" ++
   b!"    color: None,\n" ++
   b!"    message_id: \"e21409b1-d25d-4a1a-b5cf-ef27d8b7030e\",\n" ++
   b!"    timestamp: 2020-07-12T19:56:22.376Z,\n" ++
   b!"}") := by
  decide +kernel

/-- src/msg/snapshots/tmi__msg__user_notice__tests__parse_anonsubmysterygift.snap -/
example : Prints UserNotice.parse UserNotice.dbg
  (b!"@badge-info=subscriber/2;badges=subscriber/2;color=#00FFF5;display-name=CrazyCrackAnimal;e" ++
   b!"motes=;flags=;id=7006f242-a45c-4e07-83b3-11f9c6d1ee28;login=crazycrackanimal;mod=0;msg-id=" ++
   b!"giftpaidupgrade;msg-param-sender-login=stridezgum;msg-param-sender-name=Stridezgum;room-id" ++
   b!"=71092938;subscriber=1;system-msg=CrazyCrackAnimal\\sis\\scontinuing\\sthe\\sGift\\sSub\\sthey\\s" ++
   b!"got\\sfrom\\sStridezgum!;tmi-sent-ts=1594518849459;user-id=86082877;user-type= :tmi.twitch.t" ++
   b!"v USERNOTICE #xqcow")
  (b!"UserNotice {\n" ++
   b!"    channel: \"#xqcow\",\n" ++
   b!"    channel_id: \"71092938\",\n" ++
   b!"    sender: Some(\n" ++
   b!"        User {\n" ++
   b!"            id: \"86082877\",\n" ++
   b!"            login: \"crazycrackanimal\",\n" ++
   b!"            name: \"CrazyCrackAnimal\",\n" ++
   b!"        },\n" ++
   b!"    ),\n" ++
   b!"    text: None,\n" ++
   b!"    system_message: Some(\n" ++
   b!"        \"CrazyCrackAnimal\\\\sis\\\\scontinuing\\\\sthe\\\\sGift\\\\sSub\\\\sthey\\\\sgot\\\\sfrom\\\\sStridezgum!\",\n" ++
   b!"    ),\n" ++
   b!"    event: GiftPaidUpgrade(\n" ++
   b!"        GiftPaidUpgrade {\n" ++
   b!"            gifter_login: \"stridezgum\",\n" ++
   b!"            gifter_name: \"Stridezgum\",\n" ++
   b!"            promotion: None,\n" ++
   b!"        },\n" ++
   b!"    ),\n" ++
   b!"    event_id: \"giftpaidupgrade\",\n" ++
   b!"    badges: [\n" ++
   b!"        Subscriber(\n" ++
   b!"            Subscriber {\n" ++
   b!"                version: \"2\",\n" ++
   b!"                months: \"2\",\n" ++
   b!"                months_n: 2,\n" ++
   b!"            },\n" ++
   b!"        ),\n" ++
   b!"    ],\n" ++
   b!"    emotes: \"\",\n" ++
   b!"    color: Some(\n" ++
   b!"        \"#00FFF5\",\n" ++
   b!"    ),\n" ++
   b!"    message_id: \"7006f242-a45c-4e07-83b3-11f9c6d1ee28\",\n" ++
   b!"    timestamp: 2020-07-12T01:54:09.459Z,\n" ++
   b!"}") := by
  decide +kernel

/-- src/msg/snapshots/tmi__msg__user_notice__tests__parse_bitsbadgetier.snap -/
example : Prints UserNotice.parse UserNotice.dbg
  (b!"@badge-info=;badges=sub-gifter/50;color=;display-name=AdamAtReflectStudios;emotes=;flags=;" ++
   b!"id=7f1336e4-f84a-4510-809d-e57bf50af0cc;login=adamatreflectstudios;mod=0;msg-id=rewardgift" ++
   b!";msg-param-domain=pride_megacommerce_2020;msg-param-selected-count=100;msg-param-total-rew" ++
   b!"ard-count=100;msg-param-trigger-amount=20;msg-param-trigger-type=SUBGIFT;room-id=71092938;" ++
   b!"subscriber=0;system-msg=AdamAtReflectStudios's\\sGift\\sshared\\srewards\\sto\\s100\\sothers\\sin" ++
   b!"\\sChat!;tmi-sent-ts=1594583778756;user-id=211711554;user-type= :tmi.twitch.tv USERNOTICE #" ++
   b!"xqcow")
  (b!"UserNotice {\n" ++
   b!"    channel: \"#xqcow\",\n" ++
   b!"    channel_id: \"71092938\",\n" ++
   b!"    sender: None,\n" ++
   b!"    text: None,\n" ++
   b!"    system_message: Some(\n" ++
   b!"        \"AdamAtReflectStudios's\\\\sGift\\\\sshared\\\\srewards\\\\sto\\\\s100\\\\sothers\\\\sin\\\\sChat!\",\n" ++
   b!"    ),\n" ++
   b!"    event: Unknown,\n" ++
   b!"    event_id: \"rewardgift\",\n" ++
   b!"    badges: [\n" ++
   b!"        Other(\n" ++
   b!"            BadgeData {\n" ++
   b!"                name: \"sub-gifter\",\n" ++
   b!"                version: \"50\",\n" ++
   b!"                extra: None,\n" ++
   b!"            },\n" ++
   b!"        ),\n" ++
   b!"    ],\n" ++
   b!"    emotes: \"\",\n" ++
   b!"    color: None,\n" ++
   b!"    message_id: \"7f1336e4-f84a-4510-809d-e57bf50af0cc\",\n" ++
   b!"    timestamp: 2020-07-12T19:56:18.756Z,\n" ++
   b!"}") := by
  decide +kernel

/-- src/msg/snapshots/tmi__msg__user_notice__tests__parse_giftpaidupgrade_with_promo.snap -/
example : Prints UserNotice.parse UserNotice.dbg
  (b!"@badge-info=subscriber/1;badges=subscriber/0,premium/1;color=#8A2BE2;display-name=samura1j" ++
   b!"ack_ttv;emotes=;flags=;id=144ee636-0c1d-404e-8b29-35449a045a7e;login=samura1jack_ttv;mod=0" ++
   b!";msg-id=anongiftpaidupgrade;room-id=71092938;subscriber=1;system-msg=samura1jack_ttv\\sis\\s" ++
   b!"continuing\\sthe\\sGift\\sSub\\sthey\\sgot\\sfrom\\san\\sanonymous\\suser!;tmi-sent-ts=159432742173" ++
   b!"2;user-id=102707709;user-type= :tmi.twitch.tv USERNOTICE #xqcow")
  (b!"UserNotice {\n" ++
   b!"    channel: \"#xqcow\",\n" ++
   b!"    channel_id: \"71092938\",\n" ++
   b!"    sender: None,\n" ++
   b!"    text: None,\n" ++
   b!"    system_message: Some(\n" ++
   b!"        \"samura1jack_ttv\\\\sis\\\\scontinuing\\\\sthe\\\\sGift\\\\sSub\\\\sthey\\\\sgot\\\\sfrom\\\\san\\\\sanonymous\\\\suser!\",\n" ++
   b!"    ),\n" ++
   b!"    event: AnonGiftPaidUpgrade(\n" ++
   b!"        AnonGiftPaidUpgrade {\n" ++
   b!"            promotion: None,\n" ++
   b!"        },\n" ++
   b!"    ),\n" ++
   b!"    event_id: \"anongiftpaidupgrade\",\n" ++
   b!"    badges: [\n" ++
   b!"        Subscriber(\n" ++
   b!"            Subscriber {\n" ++
   b!"                version: \"0\",\n" ++
   b!"                months: \"1\",\n" ++
   b!"                months_n: 1,\n" ++
   b!"            },\n" ++
   b!"        ),\n" ++
   b!"        Other(\n" ++
   b!"            BadgeData {\n" ++
   b!"                name: \"premium\",\n" ++
   b!"                version: \"1\",\n" ++
   b!"                extra: None,\n" ++
   b!"            },\n" ++
   b!"        ),\n" ++
   b!"    ],\n" ++
   b!"    emotes: \"\",\n" ++
   b!"    color: Some(\n" ++
   b!"        \"#8A2BE2\",\n" ++
   b!"    ),\n" ++
   b!"    message_id: \"144ee636-0c1d-404e-8b29-35449a045a7e\",\n" ++
   b!"    timestamp: 2020-07-09T20:43:41.732Z,\n" ++
   b!"}") := by
  decide +kernel

/-- src/msg/snapshots/tmi__msg__user_notice__tests__parse_raid.snap -/
example : Prints UserNotice.parse UserNotice.dbg
  (b!"@badge-info=;badges=sub-gifter/50;color=;display-name=AdamAtReflectStudios;emotes=;flags=;" ++
   b!"id=e21409b1-d25d-4a1a-b5cf-ef27d8b7030e;login=adamatreflectstudios;mod=0;msg-id=subgift;ms" ++
   b!"g-param-gift-months=1;msg-param-months=2;msg-param-origin-id=da\\s39\\sa3\\see\\s5e\\s6b\\s4b\\s0" ++
   b!"d\\s32\\s55\\sbf\\sef\\s95\\s60\\s18\\s90\\saf\\sd8\\s07\\s09;msg-param-recipient-display-name=qatarki" ++
   b!"ng24xd;msg-param-recipient-id=236653628;msg-param-recipient-user-name=qatarking24xd;msg-pa" ++
   b!"ram-sender-count=0;msg-param-sub-plan-name=Channel\\sSubscription\\s(xqcow);msg-param-sub-pl" ++
   b!"an=1000;room-id=71092938;subscriber=0;system-msg=AdamAtReflectStudios\\sgifted\\sa\\sTier\\s1\\" ++
   b!"ssub\\sto\\sqatarking24xd!;tmi-sent-ts=1594583782376;user-id=211711554;user-type= :tmi.twitc" ++
   b!"h.tv USERNOTICE #xqcow")
  (b!"UserNotice {\n" ++
   b!"    channel: \"#xqcow\",\n" ++
   b!"    channel_id: \"71092938\",\n" ++
   b!"    sender: Some(\n" ++
   b!"        User {\n" ++
   b!"            id: \"211711554\",\n" ++
   b!"            login: \"adamatreflectstudios\",\n" ++
   b!"            name: \"AdamAtReflectStudios\",\n" ++
   b!"        },\n" ++
   b!"    ),\n" ++
   b!"    text: None,\n" ++
   b!"    system_message: Some(\n" ++
   b!"        \"AdamAtReflectStudios\\\\sgifted\\\\sa\\\\sTier\\\\s1\\\\ssub\\\\sto\\\\sqatarking24xd!\",\n" ++
   b!"    ),\n" ++
   b!"    event: SubGift(\n" ++
   b!"        SubGift {\n" ++
   b!"            cumulative_months: 2,\n" ++
   b!"            recipient: User {\n" ++
   b!"                id: \"236653628\",\n" ++
   b!"                login: \"qatarking24xd\",\n" ++
   b!"                name: \"qatarking24xd\",\n" ++
   b!"            },\n" ++
   b!"            sub_plan: \"1000\",\n" ++
   b!"            sub_plan_name: \"Channel\\\\sSubscription\\\\s(xqcow)\",\n" ++
   b!"            num_gifted_months: 1,\n" ++
   b!"        },\n" ++
   b!"    ),\n" ++
   b!"    event_id: \"subgift\",\n" ++
   b!"    badges: [\n" ++
   b!"        Other(\n" ++
   b!"            BadgeData {\n" ++
   b!"                name: \"sub-gifter\",\n" ++
   b!"                version: \"50\",\n" ++
   b!"                extra: None,\n" ++
   b!"            },\n" ++
   b!"        ),\n" ++
   b!"    ],\n" ++
   b!"    emotes: \"\",\n" ++
   b!"    color: None,\n" ++
   b!"    message_id: \"e21409b1-d25d-4a1a-b5cf-ef27d8b7030e\",\n" ++
   b!"    timestamp: 2020-07-12T19:56:22.376Z,\n" ++
   b!"}") := by
  decide +kernel

/-- src/msg/snapshots/tmi__msg__user_notice__tests__parse_resub.snap -/
example : Prints UserNotice.parse UserNotice.dbg
  (b!"@badge-info=subscriber/2;badges=subscriber/0,battlerite_1/1;color=#0000FF;display-name=Gut" ++
   b!"rin;emotes=1035663:0-3;flags=;id=e0975c76-054c-4954-8cb0-91b8867ec1ca;login=gutrin;mod=0;m" ++
   b!"sg-id=resub;msg-param-cumulative-months=2;msg-param-months=0;msg-param-should-share-streak" ++
   b!"=1;msg-param-streak-months=2;msg-param-sub-plan-name=Channel\\sSubscription\\s(xqcow);msg-pa" ++
   b!"ram-sub-plan=1000;room-id=71092938;subscriber=1;system-msg=Gutrin\\ssubscribed\\sat\\sTier\\s1" ++
   b!".\\sThey've\\ssubscribed\\sfor\\s2\\smonths,\\scurrently\\son\\sa\\s2\\smonth\\sstreak!;tmi-sent-ts=1" ++
   b!"581713640019;user-id=21156217;user-type= :tmi.twitch.tv USERNOTICE #xqcow :xqcL")
  (b!"UserNotice {\n" ++
   b!"    channel: \"#xqcow\",\n" ++
   b!"    channel_id: \"71092938\",\n" ++
   b!"    sender: Some(\n" ++
   b!"        User {\n" ++
   b!"            id: \"21156217\",\n" ++
   b!"            login: \"gutrin\",\n" ++
   b!"            name: \"Gutrin\",\n" ++
   b!"        },\n" ++
   b!"    ),\n" ++
   b!"    text: Some(\n" ++
   b!"        \"xqcL\",\n" ++
   b!"    ),\n" ++
   b!"    system_message: Some(\n" ++
   b!"        \"Gutrin\\\\ssubscribed\\\\sat\\\\sTier\\\\s1.\\\\sThey've\\\\ssubscribed\\\\sfor\\\\s2\\\\smonths,\\\\scurrently\\\\son\\\\sa\\\\s2\\\\smonth\\\\sstreak!\",\n" ++
   b!"    ),\n" ++
   b!"    event: SubOrResub(\n" ++
   b!"        SubOrResub {\n" ++
   b!"            is_resub: true,\n" ++
   b!"            cumulative_months: 2,\n" ++
   b!"            streak_months: Some(\n" ++
   b!"                2,\n" ++
   b!"            ),\n" ++
   b!"            sub_plan: \"1000\",\n" ++
   b!"            sub_plan_name: \"Channel\\\\sSubscription\\\\s(xqcow)\",\n" ++
   b!"        },\n" ++
   b!"    ),\n" ++
   b!"    event_id: \"resub\",\n" ++
   b!"    badges: [\n" ++
   b!"        Subscriber(\n" ++
   b!"            Subscriber {\n" ++
   b!"                version: \"0\",\n" ++
   b!"                months: \"2\",\n" ++
   b!"                months_n: 2,\n" ++
   b!"            },\n" ++
   b!"        ),\n" ++
   b!"        Other(\n" ++
   b!"            BadgeData {\n" ++
   b!"                name: \"battlerite_1\",\n" ++
   b!"                version: \"1\",\n" ++
   b!"                extra: None,\n" ++
   b!"            },\n" ++
   b!"        ),\n" ++
   b!"    ],\n" ++
   b!"    emotes: \"1035663:0-3\",\n" ++
   b!"    color: Some(\n" ++
   b!"        \"#0000FF\",\n" ++
   b!"    ),\n" ++
   b!"    message_id: \"e0975c76-054c-4954-8cb0-91b8867ec1ca\",\n" ++
   b!"    timestamp: 2020-02-14T20:54:00.019Z,\n" ++
   b!"}") := by
  decide +kernel

/-- src/msg/snapshots/tmi__msg__user_notice__tests__parse_resub_no_share_streak.snap -/
example : Prints UserNotice.parse UserNotice.dbg
  (b!"@badge-info=;badges=premium/1;color=#8A2BE2;display-name=rene_rs;emotes=;flags=;id=ca1f02f" ++
   b!"b-77ec-487d-a9b3-bc4bfef2fe8b;login=rene_rs;mod=0;msg-id=resub;msg-param-cumulative-months" ++
   b!"=11;msg-param-months=0;msg-param-should-share-streak=0;msg-param-sub-plan-name=Channel\\sSu" ++
   b!"bscription\\s(xqcow);msg-param-sub-plan=Prime;room-id=71092938;subscriber=0;system-msg=rene" ++
   b!"_rs\\ssubscribed\\swith\\sTwitch\\sPrime.\\sThey've\\ssubscribed\\sfor\\s11\\smonths!;tmi-sent-ts=1" ++
   b!"590628650446;user-id=171356987;user-type= :tmi.twitch.tv USERNOTICE #xqcow")
  (b!"UserNotice {\n" ++
   b!"    channel: \"#xqcow\",\n" ++
   b!"    channel_id: \"71092938\",\n" ++
   b!"    sender: Some(\n" ++
   b!"        User {\n" ++
   b!"            id: \"171356987\",\n" ++
   b!"            login: \"rene_rs\",\n" ++
   b!"            name: \"rene_rs\",\n" ++
   b!"        },\n" ++
   b!"    ),\n" ++
   b!"    text: None,\n" ++
   b!"    system_message: Some(\n" ++
   b!"        \"rene_rs\\\\ssubscribed\\\\swith\\\\sTwitch\\\\sPrime.\\\\sThey've\\\\ssubscribed\\\\sfor\\\\s11\\\\smonths!\",\n" ++
   b!"    ),\n" ++
   b!"    event: SubOrResub(\n" ++
   b!"        SubOrResub {\n" ++
   b!"            is_resub: true,\n" ++
   b!"            cumulative_months: 11,\n" ++
   b!"            streak_months: None,\n" ++
   b!"            sub_plan: \"Prime\",\n" ++
   b!"            sub_plan_name: \"Channel\\\\sSubscription\\\\s(xqcow)\",\n" ++
   b!"        },\n" ++
   b!"    ),\n" ++
   b!"    event_id: \"resub\",\n" ++
   b!"    badges: [\n" ++
   b!"        Other(\n" ++
   b!"            BadgeData {\n" ++
   b!"                name: \"premium\",\n" ++
   b!"                version: \"1\",\n" ++
   b!"                extra: None,\n" ++
   b!"            },\n" ++
   b!"        ),\n" ++
   b!"    ],\n" ++
   b!"    emotes: \"\",\n" ++
   b!"    color: Some(\n" ++
   b!"        \"#8A2BE2\",\n" ++
   b!"    ),\n" ++
   b!"    message_id: \"ca1f02fb-77ec-487d-a9b3-bc4bfef2fe8b\",\n" ++
   b!"    timestamp: 2020-05-28T01:17:30.446Z,\n" ++
   b!"}") := by
  decide +kernel

/-- src/msg/snapshots/tmi__msg__user_notice__tests__parse_ritual.snap -/
example : Prints UserNotice.parse UserNotice.dbg
  (b!"@badge-info=;badges=;color=;display-name=SevenTest1;emotes=30259:0-6;id=37feed0f-b9c7-4c3a" ++
   b!"-b475-21c6c6d21c3d;login=seventest1;mod=0;msg-id=ritual;msg-param-ritual-name=new_chatter;" ++
   b!"room-id=6316121;subscriber=0;system-msg=Seventoes\\sis\\snew\\shere!;tmi-sent-ts=150836390382" ++
   b!"6;turbo=0;user-id=131260580;user-type= :tmi.twitch.tv USERNOTICE #seventoes :HeyGuys")
  (b!"UserNotice {\n" ++
   b!"    channel: \"#seventoes\",\n" ++
   b!"    channel_id: \"6316121\",\n" ++
   b!"    sender: Some(\n" ++
   b!"        User {\n" ++
   b!"            id: \"131260580\",\n" ++
   b!"            login: \"seventest1\",\n" ++
   b!"            name: \"SevenTest1\",\n" ++
   b!"        },\n" ++
   b!"    ),\n" ++
   b!"    text: Some(\n" ++
   b!"        \"HeyGuys\",\n" ++
   b!"    ),\n" ++
   b!"    system_message: Some(\n" ++
   b!"        \"Seventoes\\\\sis\\\\snew\\\\shere!\",\n" ++
   b!"    ),\n" ++
   b!"    event: Ritual(\n" ++
   b!"        Ritual {\n" ++
   b!"            name: \"new_chatter\",\n" ++
   b!"        },\n" ++
   b!"    ),\n" ++
   b!"    event_id: \"ritual\",\n" ++
   b!"    badges: [],\n" ++
   b!"    emotes: \"30259:0-6\",\n" ++
   b!"    color: None,\n" ++
   b!"    message_id: \"37feed0f-b9c7-4c3a-b475-21c6c6d21c3d\",\n" ++
   b!"    timestamp: 2017-10-18T21:58:23.826Z,\n" ++
   b!"}") := by
  decide +kernel

/-- src/msg/snapshots/tmi__msg__user_notice__tests__parse_sub.snap -/
example : Prints UserNotice.parse UserNotice.dbg
  (b!"@badge-info=subscriber/0;badges=subscriber/0,premium/1;color=;display-name=fallenseraphhh;" ++
   b!"emotes=;flags=;id=2a9bea11-a80a-49a0-a498-1642d457f775;login=fallenseraphhh;mod=0;msg-id=s" ++
   b!"ub;msg-param-cumulative-months=1;msg-param-months=0;msg-param-should-share-streak=0;msg-pa" ++
   b!"ram-sub-plan-name=Channel\\sSubscription\\s(xqcow);msg-param-sub-plan=Prime;room-id=71092938" ++
   b!";subscriber=1;system-msg=fallenseraphhh\\ssubscribed\\swith\\sTwitch\\sPrime.;tmi-sent-ts=1582" ++
   b!"685713242;user-id=224005980;user-type= :tmi.twitch.tv USERNOTICE #xqcow")
  (b!"UserNotice {\n" ++
   b!"    channel: \"#xqcow\",\n" ++
   b!"    channel_id: \"71092938\",\n" ++
   b!"    sender: Some(\n" ++
   b!"        User {\n" ++
   b!"            id: \"224005980\",\n" ++
   b!"            login: \"fallenseraphhh\",\n" ++
   b!"            name: \"fallenseraphhh\",\n" ++
   b!"        },\n" ++
   b!"    ),\n" ++
   b!"    text: None,\n" ++
   b!"    system_message: Some(\n" ++
   b!"        \"fallenseraphhh\\\\ssubscribed\\\\swith\\\\sTwitch\\\\sPrime.\",\n" ++
   b!"    ),\n" ++
   b!"    event: SubOrResub(\n" ++
   b!"        SubOrResub {\n" ++
   b!"            is_resub: false,\n" ++
   b!"            cumulative_months: 1,\n" ++
   b!"            streak_months: None,\n" ++
   b!"            sub_plan: \"Prime\",\n" ++
   b!"            sub_plan_name: \"Channel\\\\sSubscription\\\\s(xqcow)\",\n" ++
   b!"        },\n" ++
   b!"    ),\n" ++
   b!"    event_id: \"sub\",\n" ++
   b!"    badges: [\n" ++
   b!"        Subscriber(\n" ++
   b!"            Subscriber {\n" ++
   b!"                version: \"0\",\n" ++
   b!"                months: \"0\",\n" ++
   b!"                months_n: 0,\n" ++
   b!"            },\n" ++
   b!"        ),\n" ++
   b!"        Other(\n" ++
   b!"            BadgeData {\n" ++
   b!"                name: \"premium\",\n" ++
   b!"                version: \"1\",\n" ++
   b!"                extra: None,\n" ++
   b!"            },\n" ++
   b!"        ),\n" ++
   b!"    ],\n" ++
   b!"    emotes: \"\",\n" ++
   b!"    color: None,\n" ++
   b!"    message_id: \"2a9bea11-a80a-49a0-a498-1642d457f775\",\n" ++
   b!"    timestamp: 2020-02-26T02:55:13.242Z,\n" ++
   b!"}") := by
  decide +kernel

/-- src/msg/snapshots/tmi__msg__user_notice__tests__parse_subgift_ananonymousgifter.snap -/
example : Prints UserNotice.parse UserNotice.dbg
  (b!"@badge-info=;badges=;color=;display-name=AnAnonymousGifter;emotes=;flags=;id=62c3fd39-84cc" ++
   b!"-452a-9096-628a5306633a;login=ananonymousgifter;mod=0;msg-id=subgift;msg-param-fun-string=" ++
   b!"FunStringThree;msg-param-gift-months=1;msg-param-months=13;msg-param-origin-id=da\\s39\\sa3\\" ++
   b!"see\\s5e\\s6b\\s4b\\s0d\\s32\\s55\\sbf\\sef\\s95\\s60\\s18\\s90\\saf\\sd8\\s07\\s09;msg-param-recipient-di" ++
   b!"splay-name=Dot0422;msg-param-recipient-id=151784015;msg-param-recipient-user-name=dot0422;" ++
   b!"msg-param-sub-plan-name=Channel\\sSubscription\\s(xqcow);msg-param-sub-plan=1000;room-id=710" ++
   b!"92938;subscriber=0;system-msg=An\\sanonymous\\suser\\sgifted\\sa\\sTier\\s1\\ssub\\sto\\sDot0422!\\s" ++
   b!";tmi-sent-ts=1594495108936;user-id=274598607;user-type= :tmi.twitch.tv USERNOTICE #xqcow")
  (b!"UserNotice {\n" ++
   b!"    channel: \"#xqcow\",\n" ++
   b!"    channel_id: \"71092938\",\n" ++
   b!"    sender: None,\n" ++
   b!"    text: None,\n" ++
   b!"    system_message: Some(\n" ++
   b!"        \"An\\\\sanonymous\\\\suser\\\\sgifted\\\\sa\\\\sTier\\\\s1\\\\ssub\\\\sto\\\\sDot0422!\\\\s\",\n" ++
   b!"    ),\n" ++
   b!"    event: SubGift(\n" ++
   b!"        SubGift {\n" ++
   b!"            cumulative_months: 13,\n" ++
   b!"            recipient: User {\n" ++
   b!"                id: \"151784015\",\n" ++
   b!"                login: \"dot0422\",\n" ++
   b!"                name: \"Dot0422\",\n" ++
   b!"            },\n" ++
   b!"            sub_plan: \"1000\",\n" ++
   b!"            sub_plan_name: \"Channel\\\\sSubscription\\\\s(xqcow)\",\n" ++
   b!"            num_gifted_months: 1,\n" ++
   b!"        },\n" ++
   b!"    ),\n" ++
   b!"    event_id: \"subgift\",\n" ++
   b!"    badges: [],\n" ++
   b!"    emotes: \"\",\n" ++
   b!"    color: None,\n" ++
   b!"    message_id: \"62c3fd39-84cc-452a-9096-628a5306633a\",\n" ++
   b!"    timestamp: 2020-07-11T19:18:28.936Z,\n" ++
   b!"}") := by
  decide +kernel

/-- src/msg/snapshots/tmi__msg__user_notice__tests__parse_submysterygift.snap -/
example : Prints UserNotice.parse UserNotice.dbg
  (b!"@badge-info=;badges=sub-gifter/50;color=;display-name=AdamAtReflectStudios;emotes=;flags=;" ++
   b!"id=049e6371-7023-4fca-8605-7dec60e72e12;login=adamatreflectstudios;mod=0;msg-id=submystery" ++
   b!"gift;msg-param-mass-gift-count=20;msg-param-origin-id=1f\\sbe\\sbb\\s4a\\s81\\s9a\\s65\\sd1\\s4b\\s" ++
   b!"77\\sf5\\s23\\s16\\s4a\\sd3\\s13\\s09\\se7\\sbe\\s55;msg-param-sender-count=100;msg-param-sub-plan=1" ++
   b!"000;room-id=71092938;subscriber=0;system-msg=AdamAtReflectStudios\\sis\\sgifting\\s20\\sTier\\s" ++
   b!"1\\sSubs\\sto\\sxQcOW's\\scommunity!\\sThey've\\sgifted\\sa\\stotal\\sof\\s100\\sin\\sthe\\schannel!;tm" ++
   b!"i-sent-ts=1594583777669;user-id=211711554;user-type= :tmi.twitch.tv USERNOTICE #xqcow")
  (b!"UserNotice {\n" ++
   b!"    channel: \"#xqcow\",\n" ++
   b!"    channel_id: \"71092938\",\n" ++
   b!"    sender: Some(\n" ++
   b!"        User {\n" ++
   b!"            id: \"211711554\",\n" ++
   b!"            login: \"adamatreflectstudios\",\n" ++
   b!"            name: \"AdamAtReflectStudios\",\n" ++
   b!"        },\n" ++
   b!"    ),\n" ++
   b!"    text: None,\n" ++
   b!"    system_message: Some(\n" ++
   b!"        \"AdamAtReflectStudios\\\\sis\\\\sgifting\\\\s20\\\\sTier\\\\s1\\\\sSubs\\\\sto\\\\sxQcOW's\\\\scommunity!\\\\sThey've\\\\sgifted\\\\sa\\\\stotal\\\\sof\\\\s100\\\\sin\\\\sthe\\\\schannel!\",\n" ++
   b!"    ),\n" ++
   b!"    event: SubMysteryGift(\n" ++
   b!"        SubMysteryGift {\n" ++
   b!"            count: 20,\n" ++
   b!"            sender_total_gifts: 100,\n" ++
   b!"            sub_plan: \"1000\",\n" ++
   b!"        },\n" ++
   b!"    ),\n" ++
   b!"    event_id: \"submysterygift\",\n" ++
   b!"    badges: [\n" ++
   b!"        Other(\n" ++
   b!"            BadgeData {\n" ++
   b!"                name: \"sub-gifter\",\n" ++
   b!"                version: \"50\",\n" ++
   b!"                extra: None,\n" ++
   b!"            },\n" ++
   b!"        ),\n" ++
   b!"    ],\n" ++
   b!"    emotes: \"\",\n" ++
   b!"    color: None,\n" ++
   b!"    message_id: \"049e6371-7023-4fca-8605-7dec60e72e12\",\n" ++
   b!"    timestamp: 2020-07-12T19:56:17.669Z,\n" ++
   b!"}") := by
  decide +kernel

/-- src/msg/snapshots/tmi__msg__user_notice__tests__parse_submysterygift_ananonymousgifter.snap -/
example : Prints UserNotice.parse UserNotice.dbg
  (b!"@badge-info=;badges=;color=;display-name=AnAnonymousGifter;emotes=;flags=;id=8db97752-3dee" ++
   b!"-460b-9001-e925d0e2ba5b;login=ananonymousgifter;mod=0;msg-id=submysterygift;msg-param-mass" ++
   b!"-gift-count=10;msg-param-origin-id=13\\s33\\sed\\sc0\\sef\\sa0\\s7b\\s9b\\s48\\s59\\scb\\scc\\se4\\s39\\" ++
   b!"s7b\\s90\\sf9\\s54\\s75\\s66;msg-param-sub-plan=1000;room-id=71092938;subscriber=0;system-msg=A" ++
   b!"n\\sanonymous\\suser\\sis\\sgifting\\s10\\sTier\\s1\\sSubs\\sto\\sxQcOW's\\scommunity!;tmi-sent-ts=15" ++
   b!"85447099603;user-id=274598607;user-type= :tmi.twitch.tv USERNOTICE #xqcow")
  (b!"UserNotice {\n" ++
   b!"    channel: \"#xqcow\",\n" ++
   b!"    channel_id: \"71092938\",\n" ++
   b!"    sender: None,\n" ++
   b!"    text: None,\n" ++
   b!"    system_message: Some(\n" ++
   b!"        \"An\\\\sanonymous\\\\suser\\\\sis\\\\sgifting\\\\s10\\\\sTier\\\\s1\\\\sSubs\\\\sto\\\\sxQcOW's\\\\scommunity!\",\n" ++
   b!"    ),\n" ++
   b!"    event: AnonSubMysteryGift(\n" ++
   b!"        AnonSubMysteryGift {\n" ++
   b!"            count: 10,\n" ++
   b!"            sub_plan: \"1000\",\n" ++
   b!"        },\n" ++
   b!"    ),\n" ++
   b!"    event_id: \"submysterygift\",\n" ++
   b!"    badges: [],\n" ++
   b!"    emotes: \"\",\n" ++
   b!"    color: None,\n" ++
   b!"    message_id: \"8db97752-3dee-460b-9001-e925d0e2ba5b\",\n" ++
   b!"    timestamp: 2020-03-29T01:58:19.603Z,\n" ++
   b!"}") := by
  decide +kernel

/-- src/msg/snapshots/tmi__msg__user_notice__tests__parse_user_notice_announcement.snap -/
example : Prints UserNotice.parse UserNotice.dbg
  (b!"@emotes=;login=pajbot;vip=0;tmi-sent-ts=1695554663565;flags=;mod=1;subscriber=1;id=bb1bec2" ++
   b!"5-8f26-4ba3-a084-a6a2ca332f00;badge-info=subscriber/93;system-msg=;user-id=82008718;user-t" ++
   b!"ype=mod;room-id=11148817;badges=moderator/1,subscriber/3072;msg-param-color=PRIMARY;msg-id" ++
   b!"=announcement;color=#2E8B57;display-name=pajbot :tmi.twitch.tv USERNOTICE #pajlada :$ping " ++
   b!"xd")
  (b!"UserNotice {\n" ++
   b!"    channel: \"#pajlada\",\n" ++
   b!"    channel_id: \"11148817\",\n" ++
   b!"    sender: Some(\n" ++
   b!"        User {\n" ++
   b!"            id: \"82008718\",\n" ++
   b!"            login: \"pajbot\",\n" ++
   b!"            name: \"pajbot\",\n" ++
   b!"        },\n" ++
   b!"    ),\n" ++
   b!"    text: Some(\n" ++
   b!"        \"$ping xd\",\n" ++
   b!"    ),\n" ++
   b!"    system_message: None,\n" ++
   b!"    event: Announcement(\n" ++
   b!"        Announcement {\n" ++
   b!"            highlight_color: \"PRIMARY\",\n" ++
   b!"        },\n" ++
   b!"    ),\n" ++
   b!"    event_id: \"announcement\",\n" ++
   b!"    badges: [\n" ++
   b!"        Moderator,\n" ++
   b!"        Subscriber(\n" ++
   b!"            Subscriber {\n" ++
   b!"                version: \"3072\",\n" ++
   b!"                months: \"93\",\n" ++
   b!"                months_n: 93,\n" ++
   b!"            },\n" ++
   b!"        ),\n" ++
   b!"    ],\n" ++
   b!"    emotes: \"\",\n" ++
   b!"    color: Some(\n" ++
   b!"        \"#2E8B57\",\n" ++
   b!"    ),\n" ++
   b!"    message_id: \"bb1bec25-8f26-4ba3-a084-a6a2ca332f00\",\n" ++
   b!"    timestamp: 2023-09-24T11:24:23.565Z,\n" ++
   b!"}") := by
  decide +kernel

/-- src/msg/snapshots/tmi__msg__user_notice__tests__parse_user_notice_announcement_no_color.snap -/
example : Prints UserNotice.parse UserNotice.dbg
  (b!"@badge-info=;badges=moderator/1;color=#1E90FF;display-name=vetricbot;emotes=;flags=;id=8c0" ++
   b!"fea53-7827-4165-8848-8e512b59beed;login=vetricbot;mod=1;msg-id=announcement;room-id=404660" ++
   b!"262;subscriber=0;system-msg=;tmi-sent-ts=1738762344755;user-id=955666532;user-type=mod;vip" ++
   b!"=0 :tmi.twitch.tv USERNOTICE #creepycode :sample")
  (b!"UserNotice {\n" ++
   b!"    channel: \"#creepycode\",\n" ++
   b!"    channel_id: \"404660262\",\n" ++
   b!"    sender: Some(\n" ++
   b!"        User {\n" ++
   b!"            id: \"955666532\",\n" ++
   b!"            login: \"vetricbot\",\n" ++
   b!"            name: \"vetricbot\",\n" ++
   b!"        },\n" ++
   b!"    ),\n" ++
   b!"    text: Some(\n" ++
   b!"        \"sample\",\n" ++
   b!"    ),\n" ++
   b!"    system_message: None,\n" ++
   b!"    event: Announcement(\n" ++
   b!"        Announcement {\n" ++
   b!"            highlight_color: \"PRIMARY\",\n" ++
   b!"        },\n" ++
   b!"    ),\n" ++
   b!"    event_id: \"announcement\",\n" ++
   b!"    badges: [\n" ++
   b!"        Moderator,\n" ++
   b!"    ],\n" ++
   b!"    emotes: \"\",\n" ++
   b!"    color: Some(\n" ++
   b!"        \"#1E90FF\",\n" ++
   b!"    ),\n" ++
   b!"    message_id: \"8c0fea53-7827-4165-8848-8e512b59beed\",\n" ++
   b!"    timestamp: 2025-02-05T13:32:24.755Z,\n" ++
   b!"}") := by
  decide +kernel

end Tmi.Conform
