/-
Property C56: the configuration of a client, its defaults and the builders.
-/
import Verif.Props.Timed
import Verif.Props.Send
import Verif.Proofs.Num
import Verif.Spec.Config

namespace Tmi.Props
open Tmi.Model Tmi.Spec Tmi.Proofs

/-! ### Lemmas -/

theorem lastOf_snoc {α β : Type} (f : α → Option β) (d : β) (l : List α) (x : α) :
    lastOf f d (l ++ [x]) = (f x).getD (lastOf f d l) := by
  unfold lastOf
  rw [List.filterMap_append]
  cases h : f x <;> simp [h]

theorem lastOf_none {α β : Type} (f : α → Option β) (d : β) (l : List α) (h : ∀ x ∈ l, f x = none) :
    lastOf f d l = d := by
  unfold lastOf
  rw [List.filterMap_eq_nil_iff.2 h]
  rfl

theorem toDigits_showNat (n : Nat) : ((Nat.toDigits 10 n).map fun c => c.val.toUInt8) = showNat n := by
  induction n using Nat.strongRecOn with
  | _ n ih =>
    rw [showNat]
    by_cases h : n < 10
    · rw [dif_pos h]
      have : ∀ m : Fin 10, ((Nat.toDigits 10 m.1).map fun c => c.val.toUInt8) = [UInt8.ofNat (48 + m.1)] := by
        decide +kernel
      exact this ⟨n, h⟩
    · rw [dif_neg h, Nat.toDigits_of_base_le (by omega) (by omega), List.map_append, ih (n / 10) (by omega)]
      congr 1
      have : ∀ m : Fin 10, [(Nat.digitChar m.1)].map (fun c => c.val.toUInt8) = [UInt8.ofNat (48 + m.1)] := by
        decide +kernel
      exact this ⟨n % 10, Nat.mod_lt _ (by omega)⟩

theorem showNat_length : ∀ (k n : Nat), 10 ^ k ≤ n → n < 10 ^ (k + 1) → (showNat n).length = k + 1
  | 0, n, _, h2 => by
    rw [showNat, dif_pos (by simpa using h2)]
    rfl
  | k + 1, n, h1, h2 => by
    have e1 : 10 ^ (k + 1) = 10 ^ k * 10 := Nat.pow_succ ..
    have e2 : 10 ^ (k + 1 + 1) = 10 ^ (k + 1) * 10 := Nat.pow_succ ..
    have : 0 < 10 ^ k := Nat.pow_pos (by omega)
    rw [showNat, dif_neg (by omega), List.length_append, showNat_length k (n / 10) (by omega) (by omega)]
    rfl

/-! ## C56 -/

/-- C56: for every sequence of calls of the setters, the configuration that `connect` uses has the last credentials,
the last timeout and the last backoff that were set, and the defaults for what was not set. -/
theorem C56_builder (n : Nat) (settings : List Setting) :
    (settings.foldl Setting.apply (builder n)).config =
      ⟨lastOf Setting.credentials? (Credentials.anon n) settings,
       lastOf Setting.timeout? (30 * second) settings,
       lastOf Setting.backoff? ⟨some 8, second, 3, 12 * second⟩ settings⟩ := by
  generalize hk : settings.length = k
  induction k generalizing settings with
  | zero => rw [List.length_eq_zero_iff.1 hk]; rfl
  | succ k ih =>
    obtain ⟨s, x, rfl⟩ : ∃ s x, settings = s ++ [x] :=
      ⟨settings.dropLast, settings.getLast (by intro h; simp [h] at hk), (List.dropLast_concat_getLast _).symm⟩
    rw [List.foldl_append, lastOf_snoc, lastOf_snoc, lastOf_snoc]
    have ih := ih s (by simpa using hk)
    generalize s.foldl Setting.apply (builder n) = b at ih
    simp only [List.foldl_cons, List.foldl_nil]
    cases x <;> simp only [Setting.apply, ClientBuilder.credentials, ClientBuilder.timeout, ClientBuilder.backoff,
      Setting.credentials?, Setting.timeout?, Setting.backoff?, Option.getD_none, Option.getD_some, ih]

/-- C56: what the builder connects with.  Whatever happens, nothing is sent but (a beginning of) the greeting for the
last credentials that were set; after success the client's configuration is the one that was built. -/
theorem C56_connect (b : Build) (n : Nat) (settings : List Setting) (w : World) :
    let creds := lastOf Setting.credentials? (Credentials.anon n) settings
    let run := (settings.foldl Setting.apply (builder n)).connect b w
    wire w run.2 <+: hello creds ∧
    (run.1 = .ok (.ok ()) → wire w run.2 = hello creds ∧
      run.2.client.config.credentials = creds ∧
      run.2.client.config.timeout = lastOf Setting.timeout? (30 * second) settings ∧
      run.2.client.config.backoff = lastOf Setting.backoff? ⟨some 8, second, 3, 12 * second⟩ settings) := by
  intro creds run
  have hb := C56_builder n settings
  have hc : (settings.foldl Setting.apply (builder n)).config.credentials = creds := by rw [hb]
  obtain ⟨h1, _, h3⟩ := C39_greeting b (settings.foldl Setting.apply (builder n)).config w
  rw [hc] at h1 h3
  refine ⟨h1, fun hr => ?_⟩
  obtain ⟨h4, _, h5⟩ := h3 hr
  have h5' : run.2.client.config = _ := h5
  rw [h5', hb]
  exact ⟨h4, rfl, rfl, rfl⟩

/-- C56: an anonymous login is `justinfan` with five digits behind it, and the greeting it is sent in has the
password that Twitch accepts for such names. -/
theorem C56_anonymous (n : Nat) (hn : InAnonRange n) :
    (∃ ds, (Credentials.anon n).login = b!"justinfan" ++ ds ∧ ds.length = 5 ∧ Digits ds ∧ decimal ds = n) ∧
    (Credentials.anon n).isAnon = true ∧
    hello (Credentials.anon n) =
      b!"CAP REQ :twitch.tv/commands twitch.tv/tags twitch.tv/membership\r\nPASS oauth:just_a_lil_guy\r\nNICK justinfan"
        ++ showNat n ++ b!"\r\n" := by
  obtain ⟨h1, h2⟩ := showNat_spec n
  have hd := toDigits_showNat n
  refine ⟨⟨showNat n, ?_, showNat_length 4 n hn.1 (Nat.lt_trans hn.2 (by decide)), h1, h2⟩, rfl, ?_⟩
  · simp only [Credentials.anon, hd]
  · simp only [Credentials.anon, hd, hello, Option.getD_none]
    have : passToken (b!"just_a_lil_guy") = b!"oauth:just_a_lil_guy" := by decide
    rw [this]
    simp

example := C56_anonymous 11824 (by decide)

/-- C56: `Client::anonymous`.  Whatever happens, nothing is sent but (a beginning of) the greeting with the name that was
drawn, five digits behind `justinfan`; after success all of it was, and the client is one with that name, without a token
and with the default timeout and backoff. -/
theorem C56_connect_anonymous (b : Build) (n : Nat) (hn : InAnonRange n) (w : World) :
    ∃ ds, ds.length = 5 ∧ Digits ds ∧ decimal ds = n ∧
      wire w (anonymous b n w).2 <+:
        b!"CAP REQ :twitch.tv/commands twitch.tv/tags twitch.tv/membership\r\nPASS oauth:just_a_lil_guy\r\nNICK justinfan"
          ++ ds ++ b!"\r\n" ∧
      ((anonymous b n w).1 = .ok (.ok ()) →
        wire w (anonymous b n w).2 =
          b!"CAP REQ :twitch.tv/commands twitch.tv/tags twitch.tv/membership\r\nPASS oauth:just_a_lil_guy\r\nNICK justinfan"
            ++ ds ++ b!"\r\n" ∧
        (anonymous b n w).2.client.config =
          ⟨⟨b!"justinfan" ++ ds, none⟩, 30 * second, ⟨some 8, second, 3, 12 * second⟩⟩) := by
  obtain ⟨⟨ds, h1, h2, h3, h4⟩, -, h5⟩ := C56_anonymous n hn
  have e : showNat n = ds := by
    have h := h1
    simp only [Credentials.anon, toDigits_showNat] at h
    exact List.append_cancel_left h
  rw [e] at h5
  obtain ⟨g1, g2⟩ := C56_connect b n [] w
  have hc : lastOf Setting.credentials? (Credentials.anon n) [] = Credentials.anon n := rfl
  rw [hc, h5] at g1 g2
  refine ⟨ds, h2, h3, h4, g1, fun hr => ?_⟩
  obtain ⟨k1, k2, k3, k4⟩ := g2 hr
  refine ⟨k1, ?_⟩
  have ec : Credentials.anon n = ⟨b!"justinfan" ++ ds, none⟩ := by
    rw [← h1]; rfl
  rw [ec] at k2
  have k2' : (anonymous b n w).2.client.config.credentials = ⟨b!"justinfan" ++ ds, none⟩ := k2
  have k3' : (anonymous b n w).2.client.config.timeout = 30 * second := k3
  have k4' : (anonymous b n w).2.client.config.backoff = ⟨some 8, second, 3, 12 * second⟩ := k4
  rw [← k2', ← k3', ← k4']

example : (anonymous ⟨.scalar, true⟩ 11824 (sampleWorld (.tlsLoaded :: .opened :: goodReplies))).1 = .ok (.ok ()) := by
  decide +kernel
example := C56_connect_anonymous ⟨.scalar, true⟩ 11824 (by decide)
  (sampleWorld (.tlsLoaded :: .opened :: goodReplies))

/-- C56: two anonymous logins are equal only if the same number was drawn. -/
theorem C56_anonymous_distinct (n m : Nat) (h : (Credentials.anon n).login = (Credentials.anon m).login) : n = m := by
  simp only [Credentials.anon, toDigits_showNat] at h
  have h := List.append_cancel_left h
  rw [← (showNat_spec n).2, ← (showNat_spec m).2, h]

example := C56_anonymous_distinct 11824 11824 rfl

/-- C56: by default there are eight attempts to reconnect, after 1, 3, 9, 12, 12, 12, 12 and 12 seconds. -/
theorem C56_default_delays (n : Nat) (settings : List Setting) (hs : ∀ s ∈ settings, s.backoff? = none) :
    let backoff := (settings.foldl Setting.apply (builder n)).config.backoff
    backoff.maxTries = some 8 ∧
    (List.range 8).map (fun k => delay backoff k) =
      [1 * second, 3 * second, 9 * second, 12 * second, 12 * second, 12 * second, 12 * second, 12 * second] ∧
    ∀ k, 3 ≤ k → delay backoff k = 12 * second := by
  intro backoff
  have hb : backoff = ⟨some 8, second, 3, 12 * second⟩ := by
    show (settings.foldl Setting.apply (builder n)).config.backoff = _
    rw [C56_builder, lastOf_none _ _ _ hs]
  rw [hb]
  refine ⟨rfl, by decide +kernel, fun k hk => ?_⟩
  obtain ⟨j, rfl⟩ : ∃ j, k = j + 2 + 1 := ⟨k - 3, by omega⟩
  show min (12 * second) (second * 3 ^ (j + 2 + 1)) = _
  have : 1 ≤ 3 ^ j := Nat.pow_pos (by omega)
  have e : 3 ^ (j + 2 + 1) = 3 ^ j * 27 := by rw [Nat.pow_add 3 j 3]
  apply Nat.min_eq_left
  rw [e, Nat.mul_comm 12]
  exact Nat.mul_le_mul_left _ (by omega)

example := C56_default_delays 11824 [.timeout 5, .credentials (.new (b!"forsen") (b!"secret"))] (by decide)

/-- C56: a `reconnect` with the default backoff and timeout returns within 553 seconds, whatever the network does. -/
theorem C56_default_reconnect (b : Build) (w : TWorld) (hw : w.deadlines = []) (n : Nat) (settings : List Setting)
    (hs : ∀ s ∈ settings, s.backoff? = none ∧ s.timeout? = none)
    (hc : w.client.config = (settings.foldl Setting.apply (builder n)).config) :
    (Timed.reconnect b w).2.now ≤ w.now + 553 * second ∧ (Timed.reconnect b w).1 ≠ .error .pending := by
  rw [C56_builder, lastOf_none _ _ _ fun s h => (hs s h).1, lastOf_none _ _ _ fun s h => (hs s h).2] at hc
  obtain ⟨h1, h2, _⟩ := C53_reconnect b w hw 8 (by rw [hc])
  have e : attemptsTime ⟨some 8, second, 3, 12 * second⟩ (30 * second) 0 8 = 553 * second := by decide +kernel
  rw [hc] at h1
  simp only [] at h1
  rw [e] at h1
  exact ⟨h1, h2⟩

example := C56_default_reconnect ⟨.scalar, true⟩
  ⟨⟨false, [], ([Setting.credentials (.new (b!"forsen") (b!"secret"))].foldl Setting.apply (builder 11824)).config⟩, [], 100, [],
    [(1000000000, .answer .slept)]⟩ rfl 11824 [.credentials (.new (b!"forsen") (b!"secret"))] (by decide) rfl

/-- C56: for every sequence of calls of `reply_to` and `client_nonce`, what `send` sends has the last value of
each. -/
theorem C56_privmsg (channel text : Bytes) (extras : List Extra) (w : World) :
    let c : Cmd := .privmsg channel text (lastOf (fun x => x.replyTo?.map some) none extras)
      (lastOf (fun x => x.nonce?.map some) none extras)
    (extras.foldl Extra.apply (newPrivmsg channel text)).send w = c.send w ∧
    (w.client.scratch = [] → (c.send w).1 = .ok (.ok ()) → wire w (c.send w).2 = commandBytes c) := by
  intro c
  refine ⟨?_, fun h0 hok => (C34_one_call c w h0).2.1 hok⟩
  have key : extras.foldl Extra.apply (newPrivmsg channel text) =
      ⟨channel, text, lastOf (fun x => x.replyTo?.map some) none extras,
        lastOf (fun x => x.nonce?.map some) none extras⟩ := by
    generalize hk : extras.length = k
    clear c
    induction k generalizing extras with
    | zero => rw [List.length_eq_zero_iff.1 hk]; rfl
    | succ k ih =>
      obtain ⟨s, x, rfl⟩ : ∃ s x, extras = s ++ [x] :=
        ⟨extras.dropLast, extras.getLast (by intro h; simp [h] at hk), (List.dropLast_concat_getLast _).symm⟩
      rw [List.foldl_append, lastOf_snoc, lastOf_snoc]
      have ih := ih s (by simpa using hk)
      generalize s.foldl Extra.apply (newPrivmsg channel text) = b at ih
      simp only [List.foldl_cons, List.foldl_nil]
      cases x <;> simp only [Extra.apply, PrivmsgBuilder.replyTo, PrivmsgBuilder.nonce, Extra.replyTo?, Extra.nonce?,
        Option.map_some, Option.map_none, Option.getD_none, Option.getD_some, ih]
  rw [key]
  rfl

/-- Non-vacuity: numbers can be drawn, and a setting that is repeated is overridden. -/
example : InAnonRange 10000 ∧ InAnonRange 99998 ∧ ¬ InAnonRange 99999 ∧
    (Credentials.anon 11824).login = b!"justinfan11824" := by decide +kernel
example : ([Setting.timeout 5, .credentials (.new (b!"forsen") (b!"secret")), .timeout 7].foldl Setting.apply
    (builder 11824)).config = ⟨⟨b!"forsen", some (b!"secret")⟩, 7, ⟨some 8, second, 3, 12 * second⟩⟩ := by decide +kernel
example : (([Setting.timeout 5, .credentials (.new (b!"forsen") (b!"secret"))].foldl Setting.apply
    (builder 11824)).connect ⟨.scalar, true⟩ (sampleWorld [.tlsLoaded, .opened, .accept 1000, .flushed,
      .line (b!":tmi.twitch.tv CAP * ACK :twitch.tv/tags"),
      .line (b!":tmi.twitch.tv 001 forsen :Welcome, GLHF!")])).1 = .ok (.ok ()) := by decide +kernel
example : wire (sampleWorld []) (([Extra.nonce (b!"a"), .replyTo (b!"id"), .nonce (b!"b")].foldl Extra.apply
    (newPrivmsg (b!"#c") (b!"hi"))).send (sampleWorld [.accept 1000])).2
      = b!"@reply-parent-msg-id=id;client-nonce=b PRIVMSG #c :hi\r\n" := by decide +kernel

end Tmi.Props
