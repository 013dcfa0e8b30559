/-
Property C98: what the server reports about events, whispers, settings and the user is what a program is told.
-/
import Verif.Proofs.Happen
import Verif.Props.Serve

namespace Tmi.Props
open Tmi.Model Tmi.Spec Tmi.Proofs

/-! ## C98: what the server reports is what a program is told -/

/-- Anything that the server says, read by the grammar and as a typed message. -/
theorem spoken_typed (b : Build) (s : Spoken) (hs : s.Ok) (hr : Readable b s.line) :
    ∃ l, line s.line = some l ∧ ∃ m, MessageOf l m ∧ SpokenRead s m ∧ (∀ m', m ≠ .other m') ∧
      (l.command = b!"ROOMSTATE" → ¬ FollowersOverflow l) := by
  cases s with
  | said s =>
    obtain ⟨l, hl, m, h1, h2, h3⟩ := said_typed b s hs hr
    refine ⟨l, hl, m, h1, h2, h3, fun hroom => ?_⟩
    exfalso
    cases s <;> obtain ⟨v, rfl, -⟩ := h2 <;> (have h := h1.1; rw [hroom] at h; revert h; decide)
  | notified s => exact notified_line hs

/-- C98: whatever the server reports, parsing the line gives a typed message with which a program is told the same. -/
theorem C98_told (b : Build) (s : Spoken) (hs : s.Ok) (hr : Readable b s.line) :
    ∃ m, Message.parse b s.line = .ok (some m) ∧ SpokenRead s m := by
  obtain ⟨l, hl, m, h1, h2, h3, h4⟩ := spoken_typed b s hs hr
  obtain ⟨r, hp, -, R⟩ := parse_line hl hr.1 hr.2.1 hr.2.2
  refine ⟨m, ?_, h2⟩
  unfold Message.parse
  rw [hp, bind_ok]
  exact ((fromIrc_exactly R h4).2 m).2 ⟨h1, fun m' e => absurd e (h3 m')⟩

/-- C98: the parser of its own type gives the same for each event. -/
theorem C98_happened (b : Build) (h : Happening) (hs : h.Ok) (hr : Readable b h.line) :
    ∃ v, parseAs UserNotice.parse b h.line = .ok (some v) ∧ HappeningRead h v := by
  obtain ⟨l, hl, v, h1, h2⟩ := happening_line hs
  exact ⟨v, ((C29_user_notice b h.line hr.1 hr.2.1 hr.2.2).2 v).2 ⟨l, hl, h1.1, h1.2⟩, h2⟩

/-- C98: through the whole client: if anything that the server says arrives, however cut into pieces, then `recv` returns
one message for each line, in order, and the typed messages tell the program the same. -/
theorem C98_received (b : Build) (cs : List Spoken) (hc : ∀ c ∈ cs, c.Ok ∧ Readable b c.line ∧ LF ∉ c.line) (net : List Net)
    (hn : arrived net = cs.flatMap fun c => c.line ++ [CR, LF]) (he : ending net = .open_) :
    ∃ ms : List MsgOwned, (∃ N, ∀ n, N ≤ n → recvPolls b n .new net = ms.map fun m => .ok (.ok m)) ∧
      ms.length = cs.length ∧
      ∀ (i : Nat) (c : Spoken) (m : MsgOwned), cs[i]? = some c → ms[i]? = some m →
        ∃ M, m.asTyped = .ok (some M) ∧ SpokenRead c M := by
  refine ⟨cs.map fun c => parsed b c.line, ?_, by simp, ?_⟩
  · obtain ⟨N, hN⟩ := (C60_open b net he).2
    refine ⟨N, fun n hn' => ?_⟩
    rw [hN n hn', hn, List.map_map]
    clear hn hN hn'
    induction cs with
    | nil => simp [delivered, receivedLines, fields_none]
    | cons c cs ih =>
      obtain ⟨h1, h2, h3⟩ := hc c (by simp)
      obtain ⟨l, hl, -⟩ := spoken_typed b c h1 h2
      rw [List.flatMap_cons, (C60_utf8 c.line _ h3).1 h2.1, List.map_cons, List.map_cons,
        ih fun c' h => hc c' (by simp [h])]
      simp only [Function.comp, expected, (owned_parse_some h2 hl).1]
  · intro i c m hi hm
    rw [List.getElem?_map, hi] at hm
    cases hm
    obtain ⟨h1, h2, -⟩ := hc c (List.mem_of_getElem? hi)
    obtain ⟨l, hl, M, h4, h5, h6, h7⟩ := spoken_typed b c h1 h2
    exact ⟨M, ((fromIrc_exactly (owned_parse_some h2 hl).2.2 h7).2 M).2 ⟨h4, fun m' e => absurd e (h6 m')⟩, h5⟩

/-! ### Samples -/

def sampleLooks : Looks := ⟨[(b!"subscriber", b!"12"), (b!"vip", b!"1")], [(b!"subscriber", b!"14")], some (b!"#FF0000")⟩

theorem sampleLooks_ok : sampleLooks.Ok := ⟨by unfold Unescaped; decide +kernel, by rintro _ ⟨⟩; unfold Unescaped; decide⟩

/-- Somebody did something. -/
def sampleHappening (who : Bytes) (deed : Deed) : Happening where
  place := ⟨b!"c", b!"1", 1594545155039⟩
  id := b!"m1"
  who := ⟨who, b!"bob", "Bob; B".toList⟩
  looks := sampleLooks
  emotes := []
  text := some (b!"hi :)")
  system := "Bob did it again!".toList
  deed := deed

theorem sampleHappening_ok {who : Bytes} (hw : Unescaped who) {d : Deed} (h : d.Ok) : (sampleHappening who d).Ok where
  place := samplePlace_ok
  id := by simp only [Unescaped, sampleHappening]; decide
  who := ⟨hw, by simp only [Unescaped, sampleHappening]; decide⟩
  looks := sampleLooks_ok
  emotes := by simp only [Unescaped, sampleHappening]; decide
  deed := h

def sampleResub : Deed := .subscribed true 14 (some 3) (b!"1000") "The tier; 1".toList
def sampleGift (anonymous : Bool) : Deed := .gifted anonymous 5 ⟨b!"8", b!"ann", "Ann".toList⟩ (b!"2000") "Tier two".toList 3
def sampleGifts : Deed := .giftedMany false 20 25 (b!"1000")
def sampleUpgrade : Deed := .upgraded (b!"ann") (b!"Ann") (some (5, b!"Subtember"))

theorem sampleResub_line : (sampleHappening (b!"7") sampleResub).line =
    b!"@badge-info=subscriber/14;badges=subscriber/12,vip/1;color=#FF0000;display-name=Bob\\:\\sB;emotes=;id=m1;" ++
    b!"login=bob;msg-id=resub;room-id=1;system-msg=Bob\\sdid\\sit\\sagain!;tmi-sent-ts=1594545155039;user-id=7;" ++
    b!"msg-param-cumulative-months=14;msg-param-streak-months=3;msg-param-sub-plan=1000;" ++
    b!"msg-param-sub-plan-name=The\\stier\\:\\s1 :tmi.twitch.tv USERNOTICE #c :hi :)" := by decide +kernel

theorem sampleDeeds_ok : ∀ d ∈ [sampleResub, sampleGift false, sampleGift true, sampleGifts, sampleUpgrade, .raided 100 (b!"u"),
      .upgradedAnonymous none, .ritual (b!"new_chatter"), .earned 1000, .announced none],
    Deed.Ok d ∧ checkLine (sampleHappening (b!"7") d).line = true := by
  simp only [List.mem_cons, List.not_mem_nil, or_false, forall_eq_or_imp, forall_eq]
  refine ⟨⟨⟨by decide, ?_, ?_⟩, by decide +kernel⟩, ⟨⟨by decide, ⟨?_, ?_⟩, ?_, by decide⟩, by decide +kernel⟩,
    ⟨⟨by decide, ⟨?_, ?_⟩, ?_, by decide⟩, by decide +kernel⟩, ⟨⟨by decide, by decide, ?_⟩, by decide +kernel⟩,
    ⟨⟨?_, ?_, ?_⟩, by decide +kernel⟩, ⟨⟨by decide, ?_⟩, by decide +kernel⟩, ⟨?_, by decide +kernel⟩,
    ⟨?_, by decide +kernel⟩, ⟨by unfold Deed.Ok; decide, by decide +kernel⟩, ⟨by rintro _ ⟨⟩, by decide +kernel⟩⟩
  case refine_1 => rintro _ ⟨⟩; decide
  case refine_12 => rintro _ _ ⟨⟩; unfold Unescaped; decide
  case refine_14 => rintro _ _ ⟨⟩
  all_goals first | (unfold Unescaped; decide) | (unfold Deed.Ok Unescaped; decide)

example := C98_happened ⟨.simd .sse2 5, true⟩ (sampleHappening (b!"7") sampleResub)
  (sampleHappening_ok (by unfold Unescaped; decide) (sampleDeeds_ok _ (by simp)).1) (readable_of (sampleDeeds_ok _ (by simp)).2 _)

/-- The other things that the server says. -/
def sampleSettings : Settings := ⟨b!"c", b!"1", some false, some (.minutes 10), none, some 30, some true⟩
def sampleWhisper : Notified := .whispered ⟨b!"7", b!"bob", "Bob; B".toList⟩ sampleLooks (b!"25:0-4") (b!"ann") (b!"Kappa : hi")
def sampleSelf : Notified := .seenAs (b!"c") (b!"Bob") sampleLooks [b!"0", b!"33"]
def sampleLogin : Notified := .loggedIn (b!"7") "Bob; B".toList sampleLooks [b!"0"]
def sampleSlow : Notified := .noticed (b!"c") (b!"slow_on") (b!"This room is now in slow mode.")
def sampleRefusal : Notified := .refused (b!"Login authentication failed")

theorem sampleSettings_line : Notified.line (.settings sampleSettings) =
    b!"@emote-only=0;followers-only=10;room-id=1;slow=30;subs-only=1 :tmi.twitch.tv ROOMSTATE #c" := by decide +kernel

theorem sampleNotified_ok : ∀ s ∈ [.settings sampleSettings, sampleWhisper, sampleSelf, sampleLogin, sampleSlow, sampleRefusal],
    Notified.Ok s ∧ (∀ b, Readable b s.line) ∧ LF ∉ s.line := by
  simp only [List.mem_cons, List.not_mem_nil, or_false, forall_eq_or_imp, forall_eq]
  refine ⟨⟨⟨by decide, ?_, ?_, ?_⟩, ?_⟩, ⟨⟨⟨?_, ?_⟩, ?_, sampleLooks_ok, ?_, by decide, by decide⟩, ?_⟩,
    ⟨⟨by decide, ?_, sampleLooks_ok, by decide, ?_⟩, ?_⟩, ⟨⟨?_, sampleLooks_ok, by decide, ?_⟩, ?_⟩, ⟨⟨by decide, ?_⟩, ?_⟩, ⟨trivial, ?_⟩⟩
  case refine_2 => rintro _ ⟨⟩; decide
  case refine_3 => rintro _ ⟨⟩; decide
  all_goals first
    | exact ⟨readable_of (by decide +kernel), by decide +kernel⟩
    | (unfold Login Unescaped; decide)
    | (unfold Unescaped; decide)

example := C98_told ⟨.simd .sse2 5, true⟩ (.notified sampleWhisper) (sampleNotified_ok sampleWhisper (by simp)).1
  ((sampleNotified_ok sampleWhisper (by simp)).2.1 _)

/-- Some of them, in three pieces. -/
def sampleArrival : List Net :=
  [.data (sampleWhisper.line.take 100), .pending, .data (sampleWhisper.line.drop 100 ++ [CR]),
   .data ([LF] ++ sampleMute.line ++ [CR, LF] ++ (Notified.settings sampleSettings).line ++ [CR, LF])]

example := C98_received ⟨.simd .sse2 5, true⟩ [.notified sampleWhisper, .said sampleMute, .notified (.settings sampleSettings)]
  (by simp only [List.mem_cons, List.not_mem_nil, or_false, forall_eq_or_imp, forall_eq]
      exact ⟨⟨(sampleNotified_ok sampleWhisper (by simp)).1, (sampleNotified_ok sampleWhisper (by simp)).2.1 _, (sampleNotified_ok sampleWhisper (by simp)).2.2⟩,
        ⟨(samples_ok sampleMute (by simp)).1, (samples_ok sampleMute (by simp)).2.1 _, (samples_ok sampleMute (by simp)).2.2⟩,
        (sampleNotified_ok (.settings sampleSettings) (by simp)).1, (sampleNotified_ok (.settings sampleSettings) (by simp)).2.1 _, (sampleNotified_ok (.settings sampleSettings) (by simp)).2.2⟩)
  sampleArrival (by decide +kernel) (by decide +kernel)

end Tmi.Props
