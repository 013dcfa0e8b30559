/-
Conformance with the unit tests of the repository other than snapshots.

Each example is a test of /repo with its input and its assertions, as a statement about the model.  `roundtrip_*` tests (serde) are not ported:
`Props/Serde.lean` proves their statement for all messages.
-/
import Verif.Conform.Basic
import Verif.Model.Serde

namespace Tmi.Conform
open Tmi.Model

/-- Every line has the property, with the scalar and with a vector search. -/
def Both (p : Build → Prop) : Prop := p ⟨.scalar, true⟩ ∧ p ⟨.simd .sse2 3, true⟩

instance (p : Build → Prop) [DecidablePred p] : Decidable (Both p) := inferInstanceAs (Decidable (_ ∧ _))

/-- The value a getter returns of the message parsed from a line. -/
def got {T : Type} (line : Bytes) (f : MsgRef → R T) (b : Build) : R (Option T) := do
  match ← MsgRef.parse b line with
  | none => return none
  | some m => return some (← f m)

/-- `notice_without_channel` (src/irc.rs:379-387) -/
example : Both fun b =>
    got (b!":tmi.twitch.tv NOTICE * :Improperly formatted auth") (fun m => m.command) b = .ok (some .notice) ∧
    got (b!":tmi.twitch.tv NOTICE * :Improperly formatted auth") (fun m => m.text) b = .ok (some (some (b!"Improperly formatted auth"))) ∧
    got (b!":tmi.twitch.tv NOTICE * :Improperly formatted auth") (fun m => m.params) b = .ok (some (some (b!"* :Improperly formatted auth"))) := by
  decide +kernel

/-- `regression_parse_prefix` (src/irc.rs:389-403) -/
example : Both fun b =>
    got (b!":justinfan57624!justinfan57624@justinfan57624.tmi.twitch.tv JOIN #riotgames") (fun m => m.prefix?) b =
      .ok (some (some ⟨some (b!"justinfan57624"), some (b!"justinfan57624"), (b!"justinfan57624.tmi.twitch.tv")⟩)) := by
  decide +kernel

/-- `regression_equals_in_tag_value` (src/irc.rs:405-409) -/
example : Both fun b =>
    got (b!"@display-name=Dixtor334;emotes=;first-msg=0;flags=;id=0b4c70e4-9a47-4ce1-9c3e-8f78111cdc19" ++
   b!";mod=0;reply-parent-display-name=minosura;reply-parent-msg-body=https://youtu.be/-ek4MFjz_" ++
   b!"eM?list=PL91C6439FD45DE2F3\\sannytfDinkDonk\\sstrimmer\\skorean\\sone;reply-parent-msg-id=7f81" ++
   b!"1788-b897-4b4c-9f91-99fafe70eb7f;reply-parent-user-id=141993641;reply-parent-user-login=mi" ++
   b!"nosura;returning-chatter=0;room-id=56418014;subscriber=1;tmi-sent-ts=1686049636367;turbo=0" ++
   b!";user-id=73714767;user-type= :dixtor334!dixtor334@dixtor334.tmi.twitch.tv PRIVMSG #anny :@" ++
   b!"minosura @anny") (fun m => m.tag .replyParentMsgBody) b =
      .ok (some (some (b!"https://youtu.be/-ek4MFjz_eM?list=PL91C6439FD45DE2F3\\sannytfDinkDonk\\sstrimmer\\skorean\\son" ++
   b!"e"))) := by
  decide +kernel

/-- `regression_equals_in_tag_value_2` (src/irc.rs:411-416) -/
example : Both fun b =>
    got (b!"@room-id=11148817;tmi-sent-ts=1723702053033;color=#B7B6F9;reply-parent-msg-body=@RomeoGigg" ++
   b!"leToess\\shttps://www.youtube.com/watch?v=khMb3k-Wwvg;emotes=;flags=;reply-parent-user-id=5" ++
   b!"3888434;id=96a5fb70-f54e-4640-979e-529a76ddf74b;reply-thread-parent-display-name=RomeoGigg" ++
   b!"leToess;reply-thread-parent-msg-id=fd2a5663-00cb-4e78-9c0d-aff6b66285bf;subscriber=0;histo" ++
   b!"rical=1;reply-parent-display-name=OGprodigy;mod=0;badges=twitch-dj/1;first-msg=0;user-id=8" ++
   b!"6336791;reply-parent-user-login=ogprodigy;turbo=0;user-type=;reply-parent-msg-id=a504ba7e-" ++
   b!"d991-45d0-ab2f-c3045c6ae7b6;reply-thread-parent-user-login=romeogiggletoess;returning-chat" ++
   b!"ter=0;display-name=RomeoGiggleToess;badge-info=;reply-thread-parent-user-id=86336791;rm-re" ++
   b!"ceived-ts=1723702053240 :romeogiggletoess!romeogiggletoess@romeogiggletoess.tmi.twitch.tv " ++
   b!"PRIVMSG #pajlada :@OGprodigy klassiker") (fun _ => pure ()) b = .ok (some ()) := by
  decide +kernel

/-- `parse_simple_params` (src/irc.rs:418-427) -/
example : Both fun b =>
    got (b!":tmi.twitch.tv 002 justinfan26682 :Your host is tmi.twitch.tv") (fun m => m.params) b = .ok (some (some (b!"justinfan26682 :Your host is tmi.twitch.tv"))) := by
  decide +kernel

/-- `parse_names`, line 1 (src/irc.rs:429-466) -/
example : Both fun b =>
    got (b!":tmi.twitch.tv 002 justinfan26682 :Your host is tmi.twitch.tv") (fun m => m.channel) b = .ok (some (none)) := by
  decide +kernel

/-- `parse_names`, line 2 (src/irc.rs:429-466) -/
example : Both fun b =>
    got (b!":tmi.twitch.tv 003 justinfan26682 :This server is rather new") (fun m => m.channel) b = .ok (some (none)) := by
  decide +kernel

/-- `parse_names`, line 3 (src/irc.rs:429-466) -/
example : Both fun b =>
    got (b!":tmi.twitch.tv 004 justinfan26682 :-") (fun m => m.channel) b = .ok (some (none)) := by
  decide +kernel

/-- `parse_names`, line 4 (src/irc.rs:429-466) -/
example : Both fun b =>
    got (b!":tmi.twitch.tv 375 justinfan26682 :-") (fun m => m.channel) b = .ok (some (none)) := by
  decide +kernel

/-- `parse_names`, line 5 (src/irc.rs:429-466) -/
example : Both fun b =>
    got (b!":tmi.twitch.tv 372 justinfan26682 :You are in a maze of twisty passages, all alike.") (fun m => m.channel) b = .ok (some (none)) := by
  decide +kernel

/-- `parse_names`, line 6 (src/irc.rs:429-466) -/
example : Both fun b =>
    got (b!":tmi.twitch.tv 376 justinfan26682 :>") (fun m => m.channel) b = .ok (some (none)) := by
  decide +kernel

/-- `parse_names`, line 7 (src/irc.rs:429-466) -/
example : Both fun b =>
    got (b!":justinfan26682.tmi.twitch.tv 353 justinfan26682 = #pajlada :localaniki pajlada sadmadlads" ++
   b!"alman spambotsen streamelements supibot tobaton_ compileraddict digital_red_panda forsenst" ++
   b!"ares howtoeat6 boring_nick") (fun m => m.channel) b = .ok (some (some (b!"#pajlada"))) := by
  decide +kernel

/-- `parse_names`, line 8 (src/irc.rs:429-466) -/
example : Both fun b =>
    got (b!":justinfan26682.tmi.twitch.tv 353 justinfan26682 = #pajlada :justinfan26682") (fun m => m.channel) b = .ok (some (some (b!"#pajlada"))) := by
  decide +kernel

/-- `parse_names`, line 9 (src/irc.rs:429-466) -/
example : Both fun b =>
    got (b!":justinfan26682.tmi.twitch.tv 366 justinfan26682 #pajlada :End of /NAMES list") (fun m => m.channel) b = .ok (some (some (b!"#pajlada"))) := by
  decide +kernel

/-- `command` (src/irc/command.rs:216-223) -/
example : (do
    let (c, pos) ← parseCommand (b!"PING <rest>") 0
    return (← c.mapM fun c => c.get (b!"PING <rest>"), (b!"PING <rest>").drop pos)) =
      (.ok (some .ping, b!"<rest>") : R _) := by
  decide +kernel

/-- `channel` (src/irc/channel.rs:31-38) -/
example : (do
    let (c, pos) ← parseChannel (b!"#channel <rest>") 0
    return (← optSlice (b!"#channel <rest>") c, (b!"#channel <rest>").drop pos)) =
      (.ok (some (b!"#channel"), b!"<rest>") : R _) := by
  decide +kernel

/-- `params` (src/irc/params.rs:17-21) -/
example : (do optSlice (b!":param_a :param_b") (← parseParams (b!":param_a :param_b") 0)) =
      (.ok (some (b!":param_a :param_b")) : R _) := by
  decide +kernel

/-- The input of `roundtrip` (src/irc/tags.rs:311) -/
def tagsSrc : Bytes := b!"@some-key-a=some-value-a;some-key-b=some-value-b;some-key-c=some-value-c "

/-- `roundtrip` (src/irc/tags.rs:310-326) -/
example : Both fun b => (do
    let (tags, pos) ← parseTags b tagsSrc 0
    let parts ← (tags.getD []).mapM fun t => do
      let (k, v) ← t.get true tagsSrc
      return k ++ b!"=" ++ v
    return (tagsSrc.drop pos, b!"@" ++ (parts.intersperse (b!";")).flatten ++ b!" ")) =
      (.ok ([], tagsSrc) : R _) := by
  decide +kernel

/-- `parse_channel` (src/common/channel.rs:165-176) -/
example :
    ChannelRef.parse (b!"#test") = some (b!"#test") ∧ ChannelRef.parse (b!"test") = none ∧
    Channel.parse (b!"#test") = some (b!"#test") ∧ Channel.parse (b!"test") = none := by
  decide +kernel

/-- `test_clear_to` (src/irc/wide/aarch64/neon.rs:149-153) -/
example : clearTo64 0b00000000_11110000_11111111_00000000#64
      (trailingZeros 0b00000000_11110000_11111111_00000000#64) =
    .ok 0b00000000_11110000_11110000_00000000#64 := by
  decide +kernel

/-- The cases of `find_first_test` (src/irc/tags/simd.rs:217-240) but the large ones. -/
def findCases : List (Bytes × Option Nat) := [
  (b!"", none), (b!"x", some 0), (b!".", none), (b!"xx", some 0), (b!"x.", some 0), (b!".x", some 1),
  (b!"x...............", some 0), (b!".x..............", some 1),
  (b!"..............x.", some 14), (b!"...............x", some 15),
  (b!"x................", some 0), (b!".x...............", some 1),
  (b!"...............x.", some 15), (b!"................x", some 16),
  (b!"x...............................", some 0), (b!".x..............................", some 1),
  (b!"..............................x.", some 30), (b!"...............................x", some 31)]

/-- `a` (src/irc/tags/simd.rs:211-215) -/
def needleAt (size i : Nat) : Bytes := (List.replicate size 0x2E).set i 0x78

/-- `find_first_test` (src/irc/tags/simd.rs:210-254), at several alignments of the data -/
example : ∀ arch ∈ [Arch.sse2, .avx2, .neon], ∀ addr ∈ [0, 1, 7, 16, 31], ∀ c ∈ findCases,
    findFirst arch.backend ⟨addr, c.1⟩ 0x78 = .ok c.2 := by
  decide +kernel

/-- `find_first_test`, the large cases (src/irc/tags/simd.rs:242-247) -/
example : ∀ arch ∈ [Arch.sse2, .avx2, .neon], ∀ i ∈ [0, 1, 1022, 1023],
    findFirst arch.backend ⟨5, needleAt 1024 i⟩ 0x78 = .ok (some i) := by
  decide +kernel

/-- `regression_invalid_prefix_span_overread` (src/msg/privmsg.rs:612-614) -/
example : Both fun b =>
    got (b!"@badge-info=;badges=moments/1;color=;display-name=kovacicdusko2001;emotes=;first-msg=0;fla" ++
   b!"gs=;id=97798b78-b5c7-4a0a-bcd4-e9ec12de926a;mod=0;returning-chatter=0;room-id=71092938;sub" ++
   b!"scriber=0;tmi-sent-ts=1663858872621;turbo=0;user-id=251524724;user-type= :kovacicdusko2001" ++
   b!"!kovacicdusko2001@kovacicdusko2001.tmi.twitch.tv PRIVMSG #xqc :!play") (fun m => do return (← Privmsg.parse m).isSome) b = .ok (some true) := by
  decide +kernel

/-- `support_text_without_trailing_marker` (src/msg/privmsg.rs:617-631) -/
example : Both fun b =>
    got (b!"@emotes=;rm-received-ts=1742677467748;id=2de725a2-f6af-4a1a-a2d3-be8773860943;user-type=;h" ++
   b!"istorical=1;room-id=23936415;tmi-sent-ts=1742677467563;mod=0;display-name=justinfan123456;" ++
   b!"turbo=0;user-id=141981764;color=#FF00A5;flags=;returning-chatter=0;first-msg=0 :justinfan1" ++
   b!"23456!justinfan123456@justinfan123456.tmi.twitch.tv PRIVMSG #jerma985 ballfondler") (fun m => do
      match ← Privmsg.parse m with
      | none => return false
      | some p =>
        let name ← p.sender.getName
        return p.text = (b!"ballfondler") ∧ p.sender.login = (b!"justinfan123456") ∧ name = (b!"justinfan123456") ∧
          p.channel = (b!"#jerma985") ∧ p.timestamp = .ofMillis 1742677467563) b =
      .ok (some true) := by
  decide +kernel

end Tmi.Conform
