/-
C77: what `{:?}` and `{:#?}` of a message say.
-/
import Verif.Proofs.TellsTyped
import Verif.Proofs.Literal
import Verif.Proofs.Samples
import Verif.Props.Debug
import Verif.Props.Shape
import Verif.Model.ErrorText
import Verif.Proofs.DebugConfig

namespace Tmi.Props
open Model hiding Kind
open Spec Proofs

/-- C77: a typed message is printed as its variant, and in it a struct of the same name, whose text says what the
serialised form says: the same fields, in the same order, with the same contents. -/
theorem C77_message (tc : TimeCodec) (k : Kind) (M : Message) (v : Value) (h : k.write tc M = some v)
    (esc : Nat → Bool) (alternate : Bool) :
    ∃ inner, M.print esc alternate = .ok (parens alternate k.name [inner]) ∧ Tells esc alternate tc k.name inner v := by
  have key : ∀ {name : Bytes} {d : Dbg}, M.dbg = .ok (.tuple name [d]) →
      M.print esc alternate = .ok (parens alternate name [d.text esc alternate]) := fun {name d} e =>
    message_print_ok.2 ⟨_, e, tuple_parens esc alternate name [d] (by simp)⟩
  cases k <;> cases M <;> simp only [Kind.write, Option.some.injEq, reduceCtorEq] at h <;> subst h
  · exact ⟨_, key rfl, t_clearChat _⟩
  · exact ⟨_, key rfl, t_clearMsg _⟩
  · exact ⟨_, key rfl, t_globalUserState _⟩
  · exact ⟨_, key rfl, t_join _⟩
  · exact ⟨_, key rfl, t_notice _⟩
  · exact ⟨_, key rfl, t_part _⟩
  · exact ⟨_, key rfl, t_ping _⟩
  · exact ⟨_, key rfl, t_pong _⟩
  · exact ⟨_, key rfl, t_privmsg _⟩
  · exact ⟨_, key rfl, t_roomState _⟩
  · exact ⟨_, key rfl, t_userNotice _⟩
  · exact ⟨_, key rfl, t_userState _⟩
  · exact ⟨_, key rfl, t_whisper _⟩

/-- C77: a message that is nothing but its variant. -/
theorem C77_reconnect (esc : Nat → Bool) (alternate : Bool) :
    Message.print esc alternate .reconnect = .ok (b!"Reconnect") :=
  message_print_ok.2 ⟨_, rfl, atom_text ..⟩

theorem prefix_text (esc : Nat → Bool) (alt : Bool) (p : Prefix) : p.dbg.text esc alt = braces alt (b!"Prefix") [
    b!"nick: " ++ optionally alt (debugStr esc) p.nick, b!"user: " ++ optionally alt (debugStr esc) p.user,
    b!"host: " ++ debugStr esc p.host] := by
  have e : (fun s => (Dbg.str s).text esc alt) = debugStr esc := funext fun s => str_text esc alt s
  rw [Prefix.dbg, struct_braces esc alt _ _ (by simp) (by simp)]
  simp only [List.map_cons, List.map_nil, fieldText, opt_text, str_text, e]
  rfl

theorem command_text (esc : Nat → Bool) (alt : Bool) (c : Command) : c.dbg.text esc alt = commandText esc alt c := by
  cases c with
  | other s =>
    rw [Command.dbg, tuple_parens esc alt _ _ (by simp), List.map_cons, List.map_nil, str_text]
    rfl
  | _ => exact atom_text ..

theorem raw_text (esc : Nat → Bool) (alt : Bool) (name : Bytes) (m : MsgRef) (tags : List (Bytes × Bytes))
    (pfx : Option Prefix) (command : Command) (channel params : Option Bytes) (ht : m.tags = .ok tags)
    (hp : m.prefix? = .ok pfx) (hc : m.command = .ok command) (hch : m.channel = .ok channel) (hps : m.params = .ok params) :
    ∃ d, m.dbg name = .ok d ∧ d.text esc alt = rawText esc alt name tags pfx command channel params := by
  have e : (fun s => (Dbg.str s).text esc alt) = debugStr esc := funext fun s => str_text esc alt s
  have e2 : (fun kv : Bytes × Bytes => (Dbg.tuple [] [.str kv.1, .str kv.2]).text esc alt) =
      fun kv => parens alt [] [debugStr esc kv.1, debugStr esc kv.2] := by
    funext kv
    rw [tuple_parens esc alt _ _ (by simp)]
    simp only [List.map_cons, List.map_nil, str_text]
  have e3 : (fun p : Prefix => p.dbg.text esc alt) = fun p => braces alt (b!"Prefix") [
    b!"nick: " ++ optionally alt (debugStr esc) p.nick, b!"user: " ++ optionally alt (debugStr esc) p.user,
    b!"host: " ++ debugStr esc p.host] := funext (prefix_text esc alt)
  unfold MsgRef.dbg
  rw [ht, hp, hc, hch, hps]
  refine ⟨_, rfl, ?_⟩
  rw [struct_braces esc alt _ _ (by simp) (by simp)]
  simp only [List.map_cons, List.map_nil, fieldText, opt_text, e, e3, command_text, dbgList, list_squares, List.map_map]
  unfold rawText
  rw [← e2]
  rfl

/-- C77: a raw message is printed as `Message` with its tags, prefix, command, channel and parameters, if these can be
had at all (see C69 for when that is so). -/
theorem C77_raw (m : MsgRef) (tags : List (Bytes × Bytes)) (pfx : Option Prefix) (command : Command)
    (channel params : Option Bytes) (ht : m.tags = .ok tags) (hp : m.prefix? = .ok pfx) (hc : m.command = .ok command)
    (hch : m.channel = .ok channel) (hps : m.params = .ok params) (esc : Nat → Bool) (alternate : Bool) :
    m.print esc alternate = .ok (rawText esc alternate (b!"Message") tags pfx command channel params) ∧
    (Message.other m).print esc alternate =
      .ok (parens alternate (b!"Other") [rawText esc alternate (b!"Message") tags pfx command channel params]) := by
  obtain ⟨d, h1, h2⟩ := raw_text esc alternate (b!"Message") m tags pfx command channel params ht hp hc hch hps
  refine ⟨print_ok.2 ⟨d, h1, h2⟩, message_print_ok.2 ⟨.tuple (b!"Other") [d], ?_, ?_⟩⟩
  · show (do return Dbg.tuple (b!"Other") [← m.debug] : R Dbg) = _
    rw [show m.debug = .ok d from h1]
    rfl
  · rw [tuple_parens esc alternate _ _ (by simp), List.map_cons, List.map_nil, h2]

/-- C77: an owned raw message is printed as `IrcMessage` with the same parts. -/
theorem C77_raw_owned (m : MsgOwned) (tags : List (Bytes × Bytes)) (pfx : Option Prefix) (command : Command)
    (channel params : Option Bytes) (ht : m.tags = .ok tags) (hp : m.prefix? = .ok pfx) (hc : m.command = .ok command)
    (hch : m.channel = .ok channel) (hps : m.params = .ok params) (esc : Nat → Bool) (alternate : Bool) :
    m.print esc alternate = .ok (rawText esc alternate (b!"IrcMessage") tags pfx command channel params) := by
  obtain ⟨d, h1, h2⟩ := raw_text esc alternate (b!"IrcMessage") m.asRef tags pfx command channel params ht hp hc hch hps
  unfold MsgOwned.print MsgOwned.debug
  rw [h1]
  exact congrArg Except.ok h2

/-- C77: a channel is printed as its name. -/
theorem C77_channel (name : Bytes) (esc : Nat → Bool) (alternate : Bool) :
    (Channel.dbg name).text esc alternate = parens alternate (b!"Channel") [debugStr esc name] := by
  rw [Channel.dbg, tuple_parens esc alternate _ _ (by simp), List.map_cons, List.map_nil, str_text]

/-- C77: a string is printed as a literal of Rust, which stands for the string. -/
theorem C77_strings (cs : List Char) (esc : Nat → Bool) :
    ∃ t, debugStr esc (enc cs) = b!"\"" ++ t ++ b!"\"" ∧ Literal t cs ∧ ∀ ds, Literal t ds → ds = cs := by
  refine ⟨_, rfl, ?_, ?_⟩
  · rw [decode_enc]
    exact literal_debug esc cs
  · rw [decode_enc]
    exact fun ds h => literal_unique h (literal_debug esc cs)

theorem fraction_unique {k w w' f f' : Nat} (hw : w ≤ k) (hw' : w' ≤ k) (h : f * 10 ^ (k - w) = f' * 10 ^ (k - w'))
    (h0 : f % 10 ≠ 0) (h0' : f' % 10 ≠ 0) : w = w' ∧ f = f' := by
  have key : ∀ {w w' f f' : Nat}, w < w' → w' ≤ k → f * 10 ^ (k - w) = f' * 10 ^ (k - w') → f' % 10 = 0 := by
    intro w w' f f' hlt hle h
    obtain ⟨j, rfl⟩ : ∃ j, w' = w + 1 + j := ⟨w' - w - 1, by omega⟩
    rw [show k - w = j + 1 + (k - (w + 1 + j)) by omega, Nat.pow_add, ← Nat.mul_assoc] at h
    have := Nat.eq_of_mul_eq_mul_right (Nat.pow_pos (by omega)) h
    rw [← this, Nat.pow_succ, ← Nat.mul_assoc]
    exact Nat.mul_mod_left ..
  rcases Nat.lt_trichotomy w w' with hlt | rfl | hlt
  · exact absurd (key hlt hw' h) h0'
  · exact ⟨rfl, Nat.eq_of_mul_eq_mul_right (Nat.pow_pos (by omega)) h⟩
  · exact absurd (key hlt hw h.symm) h0

/-- C77: there is one text for each duration, and it says which duration it is. -/
theorem C77_durations (n n' : Nat) (x y : Bytes) (hx : ShowsDuration n x) (hy : ShowsDuration n' y) : x = y ↔ n = n' := by
  have one : ∀ {n x y}, ShowsDuration n x → ShowsDuration n y → x = y := by
    intro n x y hx hy
    cases hx with
    | whole k u hu h =>
      cases hy with
      | whole k' u' hu' h' => rw [hu] at hu'; cases hu'; rfl
      | fraction k' u' hu' w f hw h' h0 =>
        rw [hu] at hu'; cases hu'
        rw [h] at h'
        rcases Nat.mul_eq_zero.1 h'.symm with h' | h'
        · rw [h'] at h0; exact absurd rfl h0
        · exact absurd h' (Nat.ne_of_gt (Nat.pow_pos (by omega)))
    | fraction k u hu w f hw h h0 =>
      cases hy with
      | whole k' u' hu' h' =>
        rw [hu] at hu'; cases hu'
        rw [h] at h'
        rcases Nat.mul_eq_zero.1 h' with h' | h'
        · rw [h'] at h0; exact absurd rfl h0
        · exact absurd h' (Nat.ne_of_gt (Nat.pow_pos (by omega)))
      | fraction k' u' hu' w' f' hw' h' h0' =>
        rw [hu] at hu'; cases hu'
        obtain ⟨rfl, rfl⟩ := fraction_unique hw hw' (h.symm.trans h') h0 h0'
        rfl
  constructor
  · rintro rfl
    have e := one hx (durationText_shows n)
    exact duration_inj (e.symm.trans (one hy (durationText_shows n')))
  · rintro rfl
    exact one hx hy

theorem credentials_text (esc : Nat → Bool) (alt : Bool) (c : Credentials) :
    c.dbg.text esc alt = bracesMore alt (b!"Credentials") [b!"nick: " ++ debugStr esc c.login] := by
  cases alt with
  | false =>
    simp [Dbg.text, Credentials.dbg, Items.ofFields, Dbg.compact, Items.compact, labelText, bracesMore, commas]
  | true =>
    rw [text_true, Credentials.dbg, Items.ofFields, Dbg.pretty, Dbg.pretty, labelText, if_neg (by decide), pad_indent]
    simp [Items.ofFields, Items.pretty, bracesMore]

/-- C47: credentials are printed with the login alone, and two of them print the same, on one line or on many, exactly
when they have the same login. -/
theorem C47_credentials (c c' : Credentials) (hu : Utf8 c.login) (hu' : Utf8 c'.login) (esc : Nat → Bool) (alternate : Bool) :
    Credentials.debug (debugStr esc) c = bracesMore false (b!"Credentials") [b!"nick: " ++ debugStr esc c.login] ∧
    c.dbg.text esc alternate = bracesMore alternate (b!"Credentials") [b!"nick: " ++ debugStr esc c.login] ∧
    (c.dbg.text esc alternate = c'.dbg.text esc alternate ↔ c.login = c'.login) := by
  refine ⟨?_, credentials_text esc alternate c, fun h => ?_, fun h => by unfold Credentials.dbg; rw [h]⟩
  · simp [Credentials.debug, bracesMore, commas]
  · let k : Config := ⟨c, 0, ⟨none, 0, 0, 0⟩⟩
    let k' : Config := ⟨c', 0, ⟨none, 0, 0, 0⟩⟩
    cases alternate with
    | false =>
      refine (config_compact_inj esc (c := k) (c' := k') hu hu' ?_).1
      simp only [Dbg.text, Bool.false_eq_true, if_false] at h ⊢
      simp only [k, k', Config.dbg, Dbg.struct, Items.ofFields, Dbg.compact, Items.compact, h]
    | true =>
      refine (config_pretty_inj esc (c := k) (c' := k') hu hu' ?_).1
      simp only [Dbg.text, if_true] at h ⊢
      simp only [k, k', Config.dbg, Dbg.struct, Items.ofFields, Dbg.pretty, Items.pretty, h]

example := C47_credentials ⟨b!"forsen", some (b!"hunter2")⟩ ⟨b!"forsen", none⟩ ⟨"forsen".toList, by decide +kernel⟩
  ⟨"forsen".toList, by decide +kernel⟩ (fun _ => false) true
example : (Credentials.dbg ⟨b!"forsen", some (b!"hunter2")⟩).text (fun _ => false) true =
    b!"Credentials {\n    nick: \"forsen\",\n    ..\n}" := by decide +kernel

/-- C77: the configuration is printed with its fields; of the credentials only the login is shown. -/
theorem C77_config (c : Config) (esc : Nat → Bool) (alternate : Bool) : ∃ timeout first most,
    ShowsDuration c.timeout timeout ∧ ShowsDuration c.backoff.initialDelay first ∧
    ShowsDuration c.backoff.maxDelay most ∧
    c.dbg.text esc alternate = braces alternate (b!"Config") [
      b!"credentials: " ++ bracesMore alternate (b!"Credentials") [b!"nick: " ++ debugStr esc c.credentials.login],
      b!"timeout: " ++ timeout,
      b!"backoff: " ++ braces alternate (b!"Backoff") [
        b!"max_tries: " ++ optionally alternate showNat c.backoff.maxTries,
        b!"initial_delay: " ++ first,
        b!"delay_multiplier: " ++ showNat c.backoff.delayMultiplier,
        b!"max_delay: " ++ most]] := by
  refine ⟨_, _, _, durationText_shows _, durationText_shows _, durationText_shows _, ?_⟩
  have e : (fun n => (dbgNat n).text esc alternate) = showNat := funext fun n => by
    rw [dbgNat, atom_text, decNat_eq]
  have eb : c.backoff.dbg.text esc alternate = braces alternate (b!"Backoff") [
        b!"max_tries: " ++ optionally alternate showNat c.backoff.maxTries,
        b!"initial_delay: " ++ durationText c.backoff.initialDelay,
        b!"delay_multiplier: " ++ showNat c.backoff.delayMultiplier,
        b!"max_delay: " ++ durationText c.backoff.maxDelay] := by
    rw [Backoff.dbg, struct_braces esc alternate _ _ (by simp) (by simp)]
    simp only [List.map_cons, List.map_nil, fieldText, opt_text, e, dbgDuration, dbgNat, atom_text, decNat_eq]
    rfl
  rw [Config.dbg, struct_braces esc alternate _ _ (by simp) (by simp)]
  simp only [List.map_cons, List.map_nil, fieldText, eb, credentials_text, dbgDuration, atom_text]
  rfl

/-- Non-vacuity of C77: a room state, whose text is spelled out in full; so are the texts of two durations. -/
example : (∃ v, Kind.roomState.write isoCodec sampleRoom = some v) ∧
    sampleRoom.print (fun _ => false) false = .ok (b!"RoomState(RoomState { channel: \"#forsen\", " ++
      b!"channel_id: \"22484632\", emote_only: None, followers_only: Some(Enabled(Some(600.2s))), " ++
      b!"r9k: Some(true), slow: None, subs_only: None })") ∧
    durationText 1000 = b!"1µs" ∧ durationText 1020300000 = b!"1.0203s" := by
  exact ⟨⟨_, rfl⟩, by decide +kernel, by decide +kernel, by decide +kernel⟩

/-- A string with a quote, a backslash, a control character, and a letter that is printed and one that is not. -/
example : debugStr (fun n => n == 0xAD) (b!"a\"\\\x1bé\u00ad") = b!"\"a\\\"\\\\\\u{1b}é\\u{ad}\"" := by
  decide +kernel

/-- The hypotheses of `C77_raw` and of `C77_durations` are met. -/
example : ∃ m, MsgRef.parse ⟨.scalar, true⟩ sampleRoomState = .ok (some m) ∧
    m.tags.isOk ∧ m.prefix?.isOk ∧ m.command.isOk ∧ m.channel.isOk ∧ m.params.isOk :=
  ⟨_, given_eq _ sampleRoomState_msg, by decide +kernel⟩
example : ∃ x y, ShowsDuration 1000 x ∧ ShowsDuration 1020300000 y :=
  have ⟨x, y, _, hx, hy, _⟩ := C77_config ⟨⟨b!"a", none⟩, 1000, ⟨none, 1020300000, 2, 3⟩⟩ (fun _ => false) false
  ⟨x, y, hx, hy⟩

end Tmi.Props
