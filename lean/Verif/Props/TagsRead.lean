/-
Property C91: a typed message depends on nothing but the tags it is made of.
-/
import Verif.Proofs.TagsRead
import Verif.Proofs.Samples

namespace Tmi.Props
open Tmi.Model Tmi.Spec Tmi.Proofs

/-- C91: two lines with the same command, channel, params and nick, and the same values of the tags that the message of
that command is made of, give the same typed message, fail together or panic together. -/
theorem C91_same (b : Build) (s s' : Bytes) (hs : Readable b s) (hs' : Readable b s') (l l' : Line)
    (hl : line s = some l) (hl' : line s' = some l') (ht : l.command ∈ typedCommands) (h : SameButTags l l') :
    Message.parse b s = Message.parse b s' := message_same b hs hs' hl hl' h ht

/-- A timeout with its tags in another order, an unknown tag, a tag of other messages, a repeated tag and a longer prefix. -/
def sampleTimeout' : Bytes :=
  b!"@tmi-sent-ts=5;new-tag=x;target-user-id=2;room-id=1;color=#FF0000;ban-duration=60;room-id=77 :tmi.twitch.tv CLEARCHAT #c :bob"
theorem sampleTimeout'_ok : checkLine sampleTimeout' = true := by decide +kernel
theorem sampleTimeout'_line : hasLine sampleTimeout' = true := by decide +kernel

example : Message.parse ⟨.scalar, true⟩ sampleTimeout = Message.parse ⟨.scalar, true⟩ sampleTimeout' :=
  C91_same ⟨.scalar, true⟩ sampleTimeout sampleTimeout' (readable_of sampleTimeout_ok _) (readable_of sampleTimeout'_ok _)
    _ _ (line_eq _ sampleTimeout_line) (line_eq _ sampleTimeout'_line) (by decide +kernel)
    ⟨by decide +kernel, by decide +kernel, by decide +kernel, by decide +kernel, by decide +kernel⟩
example : gave (Message.parse ⟨.scalar, true⟩ sampleTimeout) = true := by decide +kernel

/-- C91: the order of distinct tags does not matter. -/
theorem C91_order (b : Build) (s s' : Bytes) (hs : Readable b s) (hs' : Readable b s') (l : Line)
    (tags' : List (Bytes × Bytes)) (hl : line s = some l) (hl' : line s' = some { l with tags := tags' })
    (ht : l.command ∈ typedCommands) (hd : (l.tags.map (·.1)).Nodup) (hp : l.tags.Perm tags') :
    Message.parse b s = Message.parse b s' :=
  C91_same b s s' hs hs' l _ hl hl' ht ⟨rfl, rfl, rfl, rfl, fun _ _ => lookup_perm hp hd⟩

/-- A timeout with its tags in another order. -/
def sampleTimeout₂ : Bytes :=
  b!"@tmi-sent-ts=5;target-user-id=2;room-id=1;ban-duration=60 :tmi.twitch.tv CLEARCHAT #c :bob"
theorem sampleTimeout₂_ok : checkLine sampleTimeout₂ = true := by decide +kernel

example : Message.parse ⟨.simd .sse2 3, true⟩ sampleTimeout = Message.parse ⟨.simd .sse2 3, true⟩ sampleTimeout₂ :=
  C91_order ⟨.simd .sse2 3, true⟩ sampleTimeout sampleTimeout₂ (readable_of sampleTimeout_ok _)
    (readable_of sampleTimeout₂_ok _)
    ⟨[(b!"ban-duration", b!"60"), (b!"room-id", b!"1"), (b!"target-user-id", b!"2"), (b!"tmi-sent-ts", b!"5")],
      some (b!"tmi.twitch.tv"), b!"CLEARCHAT", some (b!"#c"), some (b!":bob")⟩
    [(b!"tmi-sent-ts", b!"5"), (b!"target-user-id", b!"2"), (b!"room-id", b!"1"), (b!"ban-duration", b!"60")]
    (by decide +kernel) (by decide +kernel) (by decide) (by decide) (by decide)

/-- C91: tags that the message is not made of, wherever they stand and whatever they hold, do not matter. -/
theorem C91_other_tags (b : Build) (s s' : Bytes) (hs : Readable b s) (hs' : Readable b s') (l : Line)
    (tags' : List (Bytes × Bytes)) (hl : line s = some l) (hl' : line s' = some { l with tags := tags' })
    (ht : l.command ∈ typedCommands)
    (hf : (l.tags.filter fun p => p.1 ∈ tagsRead l.command) = tags'.filter fun p => p.1 ∈ tagsRead l.command) :
    Message.parse b s = Message.parse b s' :=
  C91_same b s s' hs hs' l _ hl hl' ht ⟨rfl, rfl, rfl, rfl, fun k hk => by
    show lookup k l.tags = lookup k tags'
    rw [← lookup_filter (P := fun k => k ∈ tagsRead l.command) (by simpa using hk) l.tags, hf,
      lookup_filter (P := fun k => k ∈ tagsRead l.command) (by simpa using hk)]⟩

/-- A join with a tag. -/
def sampleTaggedJoin : Bytes := b!"@new-tag=x;badges=broken :a!a@a.tmi.twitch.tv JOIN #c"
theorem sampleTaggedJoin_ok : checkLine sampleTaggedJoin = true := by decide +kernel

example : Message.parse ⟨.scalar, true⟩ sampleJoin = Message.parse ⟨.scalar, true⟩ sampleTaggedJoin :=
  C91_other_tags ⟨.scalar, true⟩ sampleJoin sampleTaggedJoin (readable_of sampleJoin_ok _) (readable_of sampleTaggedJoin_ok _)
    ⟨[], some (b!"a!a@a.tmi.twitch.tv"), b!"JOIN", some (b!"#c"), none⟩
    [(b!"new-tag", b!"x"), (b!"badges", b!"broken")]
    (by decide +kernel) (by decide +kernel) (by decide) (by decide)

/-- C91: of tags with one name the first counts: repeating a tag later does not matter. -/
theorem C91_repeated (b : Build) (s s' : Bytes) (hs : Readable b s) (hs' : Readable b s') (l : Line)
    (x y z : List (Bytes × Bytes)) (k v v' : Bytes) (htags : l.tags = x ++ (k, v) :: y ++ z)
    (hl : line s = some l) (hl' : line s' = some { l with tags := x ++ (k, v) :: y ++ (k, v') :: z })
    (ht : l.command ∈ typedCommands) : Message.parse b s = Message.parse b s' :=
  C91_same b s s' hs hs' l _ hl hl' ht ⟨rfl, rfl, rfl, rfl, fun j _ => by
    show lookup j l.tags = lookup j (x ++ (k, v) :: y ++ (k, v') :: z)
    rw [htags, lookup_append, lookup_append, lookup_append, lookup_append, lookup, lookup]
    split
    · cases lookup j x <;> rfl
    · rfl⟩

/-- A timeout with a second duration. -/
def sampleTimeout₃ : Bytes :=
  b!"@ban-duration=60;room-id=1;ban-duration=600;target-user-id=2;tmi-sent-ts=5 :tmi.twitch.tv CLEARCHAT #c :bob"
theorem sampleTimeout₃_ok : checkLine sampleTimeout₃ = true := by decide +kernel

example : Message.parse ⟨.scalar, true⟩ sampleTimeout = Message.parse ⟨.scalar, true⟩ sampleTimeout₃ :=
  C91_repeated ⟨.scalar, true⟩ sampleTimeout sampleTimeout₃ (readable_of sampleTimeout_ok _)
    (readable_of sampleTimeout₃_ok _)
    ⟨[(b!"ban-duration", b!"60"), (b!"room-id", b!"1"), (b!"target-user-id", b!"2"), (b!"tmi-sent-ts", b!"5")],
      some (b!"tmi.twitch.tv"), b!"CLEARCHAT", some (b!"#c"), some (b!":bob")⟩
    [] [(b!"room-id", b!"1")] [(b!"target-user-id", b!"2"), (b!"tmi-sent-ts", b!"5")]
    (b!"ban-duration") (b!"60") (b!"600") rfl (by decide +kernel) (by decide +kernel) (by decide)

/-! ### None of the tags is listed for nothing -/

/-- A line with the given tags. -/
def lineWith (tags : List (Bytes × Bytes)) (pfx c rest : Bytes) : Bytes :=
  AT :: (renderTags tags ++ SP :: (COLON :: (pfx ++ SP :: (c ++ SP :: rest))))

/-- Leaving the tag `k` away gives another message. -/
def matters (b : Build) (c : Bytes) (tags : List (Bytes × Bytes)) (k : Bytes) : Bool :=
  let tags' := tags.filter fun p => p.1 ≠ k
  let rest := if c = b!"WHISPER" then b!"bob :hi" else b!"#c :hi"
  let s := lineWith tags (b!"a!a@a") c rest
  let s' := lineWith tags' (b!"a!a@a") c rest
  let chan := if c = b!"WHISPER" then none else some (b!"#c")
  let params := if c = b!"WHISPER" then some rest else some (b!":hi")
  checkLine s && checkLine s' && line s == some ⟨tags, some (b!"a!a@a"), c, chan, params⟩ &&
    line s' == some ⟨tags', some (b!"a!a@a"), c, chan, params⟩ && decide (Message.parse b s ≠ Message.parse b s')

/-! Lists of tags of messages; of those before the number it is not asked whether they matter. -/

def tags1 : List (Bytes × Bytes) :=
  [(b!"room-id", b!"1"), (b!"target-user-id", b!"2"), (b!"ban-duration", b!"60"), (b!"tmi-sent-ts", b!"5")]
def tags2 : List (Bytes × Bytes) :=
  [(b!"room-id", b!"1"), (b!"login", b!"bob"), (b!"target-msg-id", b!"m"), (b!"tmi-sent-ts", b!"5")]
def tags3 : List (Bytes × Bytes) :=
  [(b!"user-id", b!"7"), (b!"display-name", b!"A"), (b!"badges", b!"vip/1"), (b!"badge-info", b!"x/1"),
   (b!"emote-sets", b!"0"), (b!"color", b!"#fff")]
def tags4 : List (Bytes × Bytes) :=
  [(b!"msg-id", b!"slow_on")]
def tags5 : List (Bytes × Bytes) :=
  [(b!"room-id", b!"1"), (b!"id", b!"i"), (b!"user-id", b!"7"), (b!"display-name", b!"A"), (b!"tmi-sent-ts",
   b!"5"), (b!"msg-id", b!"h"), (b!"badges", b!"vip/1"), (b!"badge-info", b!"x/1"), (b!"color", b!"#fff"),
   (b!"custom-reward-id", b!"r"), (b!"bits", b!"3"), (b!"emotes", b!"25:0-1")]
def tags6 : List (Bytes × Bytes) :=
  [(b!"room-id", b!"1"), (b!"id", b!"i"), (b!"user-id", b!"7"), (b!"display-name", b!"A"), (b!"tmi-sent-ts",
   b!"5"), (b!"reply-parent-msg-id", b!"p"), (b!"reply-thread-parent-msg-id", b!"q"),
   (b!"reply-thread-parent-user-login", b!"t"), (b!"reply-parent-user-id", b!"8"), (b!"reply-parent-user-login",
   b!"c"), (b!"reply-parent-display-name", b!"C"), (b!"reply-parent-msg-body", b!"y")]
def tags7 : List (Bytes × Bytes) :=
  [(b!"room-id", b!"1"), (b!"id", b!"i"), (b!"user-id", b!"7"), (b!"display-name", b!"A"), (b!"tmi-sent-ts",
   b!"5"), (b!"pinned-chat-paid-amount", b!"500"), (b!"pinned-chat-paid-currency", b!"USD"),
   (b!"pinned-chat-paid-exponent", b!"2"), (b!"pinned-chat-paid-level", b!"ONE"),
   (b!"pinned-chat-paid-is-system-message", b!"1")]
def tags8 : List (Bytes × Bytes) :=
  [(b!"room-id", b!"1"), (b!"emote-only", b!"0"), (b!"followers-only", b!"10"), (b!"r9k", b!"1"), (b!"slow",
   b!"5"), (b!"subs-only", b!"0")]
def tags9 : List (Bytes × Bytes) :=
  [(b!"room-id", b!"1"), (b!"id", b!"i"), (b!"user-id", b!"2"), (b!"login", b!"bob"), (b!"display-name", b!"Bob"),
   (b!"tmi-sent-ts", b!"5"), (b!"msg-id", b!"resub"), (b!"system-msg", b!"x"), (b!"badges", b!"vip/1"),
   (b!"badge-info", b!"x/1"), (b!"emotes", b!"25:0-1"), (b!"color", b!"#fff"), (b!"msg-param-cumulative-months",
   b!"6"), (b!"msg-param-streak-months", b!"2"), (b!"msg-param-sub-plan", b!"1000"), (b!"msg-param-sub-plan-name",
   b!"P")]
def tags10 : List (Bytes × Bytes) :=
  [(b!"room-id", b!"1"), (b!"id", b!"i"), (b!"user-id", b!"2"), (b!"login", b!"bob"), (b!"display-name", b!"Bob"),
   (b!"tmi-sent-ts", b!"5"), (b!"msg-id", b!"raid"), (b!"msg-param-viewerCount", b!"5"),
   (b!"msg-param-profileImageURL", b!"u")]
def tags11 : List (Bytes × Bytes) :=
  [(b!"room-id", b!"1"), (b!"id", b!"i"), (b!"user-id", b!"2"), (b!"login", b!"bob"), (b!"display-name", b!"Bob"),
   (b!"tmi-sent-ts", b!"5"), (b!"msg-id", b!"subgift"), (b!"msg-param-sub-plan", b!"1000"),
   (b!"msg-param-sub-plan-name", b!"P"), (b!"msg-param-months", b!"2"), (b!"msg-param-recipient-id", b!"8"),
   (b!"msg-param-recipient-user-name", b!"ann"), (b!"msg-param-recipient-display-name", b!"Ann"),
   (b!"msg-param-gift-months", b!"3")]
def tags12 : List (Bytes × Bytes) :=
  [(b!"room-id", b!"1"), (b!"id", b!"i"), (b!"user-id", b!"2"), (b!"login", b!"bob"), (b!"display-name", b!"Bob"),
   (b!"tmi-sent-ts", b!"5"), (b!"msg-id", b!"submysterygift"), (b!"msg-param-sub-plan", b!"1000"),
   (b!"msg-param-mass-gift-count", b!"20"), (b!"msg-param-sender-count", b!"100")]
def tags13 : List (Bytes × Bytes) :=
  [(b!"room-id", b!"1"), (b!"id", b!"i"), (b!"user-id", b!"2"), (b!"login", b!"bob"), (b!"display-name", b!"Bob"),
   (b!"tmi-sent-ts", b!"5"), (b!"msg-id", b!"giftpaidupgrade"), (b!"msg-param-sender-login", b!"ann"),
   (b!"msg-param-sender-name", b!"Ann"), (b!"msg-param-promo-gift-total", b!"4"), (b!"msg-param-promo-name",
   b!"S")]
def tags14 : List (Bytes × Bytes) :=
  [(b!"room-id", b!"1"), (b!"id", b!"i"), (b!"user-id", b!"2"), (b!"login", b!"bob"), (b!"display-name", b!"Bob"),
   (b!"tmi-sent-ts", b!"5"), (b!"msg-id", b!"ritual"), (b!"msg-param-ritual-name", b!"new_chatter")]
def tags15 : List (Bytes × Bytes) :=
  [(b!"room-id", b!"1"), (b!"id", b!"i"), (b!"user-id", b!"2"), (b!"login", b!"bob"), (b!"display-name", b!"Bob"),
   (b!"tmi-sent-ts", b!"5"), (b!"msg-id", b!"bitsbadgetier"), (b!"msg-param-threshold", b!"10000")]
def tags16 : List (Bytes × Bytes) :=
  [(b!"room-id", b!"1"), (b!"id", b!"i"), (b!"user-id", b!"2"), (b!"login", b!"bob"), (b!"display-name", b!"Bob"),
   (b!"tmi-sent-ts", b!"5"), (b!"msg-id", b!"announcement"), (b!"msg-param-color", b!"GREEN")]
def tags17 : List (Bytes × Bytes) :=
  [(b!"display-name", b!"A"), (b!"badges", b!"vip/1"), (b!"badge-info", b!"x/1"), (b!"emote-sets", b!"0"),
   (b!"color", b!"#fff")]
def tags18 : List (Bytes × Bytes) :=
  [(b!"user-id", b!"7"), (b!"display-name", b!"A"), (b!"badges", b!"vip/1"), (b!"badge-info", b!"x/1"),
   (b!"emotes", b!"25:0-1"), (b!"color", b!"#fff")]

/-- The lists with their commands. -/
def tagLists : List (Bytes × List (Bytes × Bytes) × Nat) :=
  [(b!"CLEARCHAT", tags1, 0), (b!"CLEARMSG", tags2, 0), (b!"GLOBALUSERSTATE", tags3, 0),
   (b!"NOTICE", tags4, 0), (b!"PRIVMSG", tags5, 0), (b!"PRIVMSG", tags6, 5),
   (b!"PRIVMSG", tags7, 5), (b!"ROOMSTATE", tags8, 0), (b!"USERNOTICE", tags9, 0),
   (b!"USERNOTICE", tags10, 7), (b!"USERNOTICE", tags11, 9), (b!"USERNOTICE", tags12, 8),
   (b!"USERNOTICE", tags13, 7), (b!"USERNOTICE", tags14, 7), (b!"USERNOTICE", tags15, 7),
   (b!"USERNOTICE", tags16, 7), (b!"USERSTATE", tags17, 0), (b!"WHISPER", tags18, 0)]

theorem matter1 : ∀ p ∈ tags1.drop 0, matters ⟨.scalar, true⟩ (b!"CLEARCHAT") tags1 p.1 = true := by decide +kernel
theorem matter2 : ∀ p ∈ tags2.drop 0, matters ⟨.scalar, true⟩ (b!"CLEARMSG") tags2 p.1 = true := by decide +kernel
theorem matter3 : ∀ p ∈ tags3.drop 0, matters ⟨.scalar, true⟩ (b!"GLOBALUSERSTATE") tags3 p.1 = true := by decide +kernel
theorem matter4 : ∀ p ∈ tags4.drop 0, matters ⟨.scalar, true⟩ (b!"NOTICE") tags4 p.1 = true := by decide +kernel
theorem matter5 : ∀ p ∈ tags5.drop 0, matters ⟨.scalar, true⟩ (b!"PRIVMSG") tags5 p.1 = true := by decide +kernel
theorem matter6 : ∀ p ∈ tags6.drop 5, matters ⟨.scalar, true⟩ (b!"PRIVMSG") tags6 p.1 = true := by decide +kernel
theorem matter7 : ∀ p ∈ tags7.drop 5, matters ⟨.scalar, true⟩ (b!"PRIVMSG") tags7 p.1 = true := by decide +kernel
theorem matter8 : ∀ p ∈ tags8.drop 0, matters ⟨.scalar, true⟩ (b!"ROOMSTATE") tags8 p.1 = true := by decide +kernel
theorem matter9 : ∀ p ∈ tags9.drop 0, matters ⟨.scalar, true⟩ (b!"USERNOTICE") tags9 p.1 = true := by decide +kernel
theorem matter10 : ∀ p ∈ tags10.drop 7, matters ⟨.scalar, true⟩ (b!"USERNOTICE") tags10 p.1 = true := by decide +kernel
theorem matter11 : ∀ p ∈ tags11.drop 9, matters ⟨.scalar, true⟩ (b!"USERNOTICE") tags11 p.1 = true := by decide +kernel
theorem matter12 : ∀ p ∈ tags12.drop 8, matters ⟨.scalar, true⟩ (b!"USERNOTICE") tags12 p.1 = true := by decide +kernel
theorem matter13 : ∀ p ∈ tags13.drop 7, matters ⟨.scalar, true⟩ (b!"USERNOTICE") tags13 p.1 = true := by decide +kernel
theorem matter14 : ∀ p ∈ tags14.drop 7, matters ⟨.scalar, true⟩ (b!"USERNOTICE") tags14 p.1 = true := by decide +kernel
theorem matter15 : ∀ p ∈ tags15.drop 7, matters ⟨.scalar, true⟩ (b!"USERNOTICE") tags15 p.1 = true := by decide +kernel
theorem matter16 : ∀ p ∈ tags16.drop 7, matters ⟨.scalar, true⟩ (b!"USERNOTICE") tags16 p.1 = true := by decide +kernel
theorem matter17 : ∀ p ∈ tags17.drop 0, matters ⟨.scalar, true⟩ (b!"USERSTATE") tags17 p.1 = true := by decide +kernel
theorem matter18 : ∀ p ∈ tags18.drop 0, matters ⟨.scalar, true⟩ (b!"WHISPER") tags18 p.1 = true := by decide +kernel

theorem all_matter : ∀ w ∈ tagLists, ∀ p ∈ w.2.1.drop w.2.2, matters ⟨.scalar, true⟩ w.1 w.2.1 p.1 = true := by
  unfold tagLists
  repeat rw [List.forall_mem_cons]
  exact ⟨matter1, matter2, matter3, matter4, matter5, matter6, matter7, matter8, matter9,
    matter10, matter11, matter12, matter13, matter14, matter15, matter16, matter17, matter18, nofun⟩

theorem all_listed : ∀ c ∈ typedCommands, ∀ k ∈ tagsRead c, ∃ w ∈ tagLists, w.1 = c ∧ ∃ p ∈ w.2.1.drop w.2.2, p.1 = k := by
  decide +kernel

/-- C91: none of the tags is listed for nothing: each of them can make a difference on its own. -/
theorem C91_tight (c : Bytes) (hc : c ∈ typedCommands) (k : Bytes) (hk : k ∈ tagsRead c) : ∃ s s' l l',
    Readable ⟨.scalar, true⟩ s ∧ Readable ⟨.scalar, true⟩ s' ∧ line s = some l ∧ line s' = some l' ∧
    l.command = c ∧ l'.command = c ∧ l.channel = l'.channel ∧ l.params = l'.params ∧ l.prefix? = l'.prefix? ∧
    (∀ j, j ≠ k → l.tag j = l'.tag j) ∧ Message.parse ⟨.scalar, true⟩ s ≠ Message.parse ⟨.scalar, true⟩ s' := by
  obtain ⟨⟨_, tags, d⟩, hw, rfl, p, hp, rfl⟩ := all_listed c hc k hk
  have h := all_matter _ hw p hp
  unfold matters at h
  simp only [Bool.and_eq_true, beq_iff_eq, decide_eq_true_eq] at h
  obtain ⟨⟨⟨⟨h1, h2⟩, h3⟩, h4⟩, h5⟩ := h
  refine ⟨_, _, _, _, readable_of h1 _, readable_of h2 _, h3, h4, rfl, rfl, rfl, rfl, rfl, fun j hj => ?_, h5⟩
  exact (lookup_filter (P := fun i => decide (i ≠ p.1)) (by simpa using hj) tags).symm

example : ∃ c ∈ typedCommands, b!"emote-only" ∈ tagsRead c := by decide

end Tmi.Props
