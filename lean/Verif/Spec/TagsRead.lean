/-
Which tags matter to which message.
-/
import Verif.Spec.Msg

namespace Tmi.Spec

/-- The tags that the typed message of a command is made of. -/
def tagsRead (command : Bytes) : List Bytes :=
  if command = b!"CLEARCHAT" then [b!"room-id", b!"target-user-id", b!"ban-duration", b!"tmi-sent-ts"]
  else if command = b!"CLEARMSG" then [b!"room-id", b!"login", b!"target-msg-id", b!"tmi-sent-ts"]
  else if command = b!"GLOBALUSERSTATE" then
    [b!"user-id", b!"display-name", b!"badges", b!"badge-info", b!"emote-sets", b!"color"]
  else if command = b!"NOTICE" then [b!"msg-id"]
  else if command = b!"PRIVMSG" then
    [b!"room-id", b!"msg-id", b!"id", b!"user-id", b!"display-name", b!"badges", b!"badge-info", b!"color",
     b!"custom-reward-id", b!"bits", b!"emotes", b!"tmi-sent-ts",
     b!"reply-parent-msg-id", b!"reply-thread-parent-msg-id", b!"reply-thread-parent-user-login",
     b!"reply-parent-user-id", b!"reply-parent-user-login", b!"reply-parent-display-name", b!"reply-parent-msg-body",
     b!"pinned-chat-paid-amount", b!"pinned-chat-paid-currency", b!"pinned-chat-paid-exponent",
     b!"pinned-chat-paid-level", b!"pinned-chat-paid-is-system-message"]
  else if command = b!"ROOMSTATE" then
    [b!"room-id", b!"emote-only", b!"followers-only", b!"r9k", b!"slow", b!"subs-only"]
  else if command = b!"USERNOTICE" then
    [b!"room-id", b!"msg-id", b!"id", b!"user-id", b!"login", b!"display-name", b!"system-msg", b!"badges", b!"badge-info",
     b!"emotes", b!"color", b!"tmi-sent-ts", b!"msg-param-cumulative-months", b!"msg-param-streak-months",
     b!"msg-param-sub-plan", b!"msg-param-sub-plan-name", b!"msg-param-viewerCount", b!"msg-param-profileImageURL",
     b!"msg-param-months", b!"msg-param-recipient-id", b!"msg-param-recipient-user-name",
     b!"msg-param-recipient-display-name", b!"msg-param-gift-months", b!"msg-param-mass-gift-count",
     b!"msg-param-sender-count", b!"msg-param-sender-login", b!"msg-param-sender-name",
     b!"msg-param-promo-gift-total", b!"msg-param-promo-name", b!"msg-param-ritual-name", b!"msg-param-threshold",
     b!"msg-param-color"]
  else if command = b!"USERSTATE" then [b!"display-name", b!"badges", b!"badge-info", b!"emote-sets", b!"color"]
  else if command = b!"WHISPER" then [b!"user-id", b!"display-name", b!"badges", b!"badge-info", b!"emotes", b!"color"]
  else []

/-- Two lines that differ only in what comes after the nick in the prefix, and in tags that the message is not made of. -/
structure SameButTags (l l' : Line) : Prop where
  command : l.command = l'.command
  channel : l.channel = l'.channel
  params : l.params = l'.params
  nick : l.nick = l'.nick
  tags : ∀ k ∈ tagsRead l.command, l.tag k = l'.tag k

end Tmi.Spec
