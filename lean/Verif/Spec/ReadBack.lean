/-
Specification of the typed messages that deserialisation can yield: the values of their fields are such that what
serialisation writes for them can be read.
-/
import Verif.Spec.Shape

namespace Tmi.Spec
open Model

/-- A number of an unsigned 64-bit type. -/
def Fits64 (n : Nat) : Prop := n < 2 ^ 64

/-- The nanoseconds of a duration of less than 2^64 seconds. -/
def FitsDuration (d : Nat) : Prop := d < 2 ^ 64 * 1000000000

/-- A number of a signed 64-bit type. -/
def FitsI64 (n : Int) : Prop := -2 ^ 63 ≤ n ∧ n < 2 ^ 63

/-- If there is something, it is such. -/
def IfAny {α : Type} (P : α → Prop) (o : Option α) : Prop := ∀ a, o = some a → P a

/-- The months of a subscriber are a number that is written in decimal. -/
def badgeReadsBack : Badge → Prop
  | .subscriber v => IsNat v.months v.monthsN ∧ Fits64 v.monthsN
  | _ => True

/-- All badges. -/
def badgesReadBack (l : List Badge) : Prop := ∀ b ∈ l, badgeReadsBack b

/-- The length of a timeout. -/
def actionReadsBack : Action → Prop
  | .timeOut _ _ d => FitsDuration d
  | _ => True

/-- The amount of a hype chat. -/
def pinnedReadsBack (v : PinnedChat) : Prop := FitsI64 v.paidAmount ∧ FitsI64 v.paidExponent

/-- The length of followers-only mode. -/
def followersReadsBack : FollowersOnly → Prop
  | .enabled d => IfAny FitsDuration d
  | .disabled => True

/-- The total of a promotion. -/
def promoReadsBack (v : SubGiftPromo) : Prop := Fits64 v.totalGifts

/-- The numbers of an event. -/
def eventReadsBack : Event → Prop
  | .subOrResub _ months streak _ _ => Fits64 months ∧ IfAny Fits64 streak
  | .raid viewers _ => Fits64 viewers
  | .subGift months _ _ _ gifted => Fits64 months ∧ Fits64 gifted
  | .subMysteryGift count total _ => Fits64 count ∧ Fits64 total
  | .anonSubMysteryGift count _ => Fits64 count
  | .giftPaidUpgrade _ _ promo => IfAny promoReadsBack promo
  | .anonGiftPaidUpgrade promo => IfAny promoReadsBack promo
  | .ritual _ => True
  | .bitsBadgeTier tier => Fits64 tier
  | .announcement _ => True
  | .unknown => True

/-- A time that chrono reads from the text that it writes for it. -/
def timeReadsBack (tc : TimeCodec) (t : Timestamp) : Prop := tc.read (tc.show_ t) = some t

/-- The values in a message are such that it can be read from what is written for it. -/
def ReadsBack (tc : TimeCodec) : Message → Prop
  | .clearChat v => actionReadsBack v.action ∧ timeReadsBack tc v.timestamp
  | .clearMsg v => timeReadsBack tc v.timestamp
  | .globalUserState v => badgesReadBack v.badges
  | .privmsg v => IfAny pinnedReadsBack v.pinnedChat ∧ badgesReadBack v.badges ∧ IfAny Fits64 v.bits ∧
      timeReadsBack tc v.timestamp
  | .roomState v => IfAny followersReadsBack v.followersOnly ∧ IfAny FitsDuration v.slow
  | .userNotice v => eventReadsBack v.event ∧ badgesReadBack v.badges ∧ timeReadsBack tc v.timestamp
  | .userState v => badgesReadBack v.badges
  | .whisper v => badgesReadBack v.badges
  | _ => True

end Tmi.Spec
