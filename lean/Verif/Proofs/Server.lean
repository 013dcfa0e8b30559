/-
Lemmas about the programs of README.md and examples/basic.rs when the server keeps to the protocol.
-/
import Verif.Spec.Server
import Verif.Proofs.Bot
import Verif.Proofs.Net
import Verif.Props.Bot
import Verif.Props.Happen

namespace Tmi.Proofs
open Tmi.Model Tmi.Spec Tmi.Props

/-! ### Lines that are taken have arrived -/

/-- What `x` takes are lines from the part of the script that it uses up. -/
def TakesLines {α : Type} (x : Act α) (w : World) : Prop :=
  ∃ ev used, (x w).2.log = w.log ++ ev ∧ w.script = used ++ (x w).2.script ∧ ((taken ev).map Answer.line).Sublist used

theorem TakesLines.free {α : Type} {x : Act α} {w : World} (hl : (x w).2.log = w.log) (hs : (x w).2.script = w.script) : TakesLines x w :=
  ⟨[], [], by simp [hl], by simp [hs], by simp [taken]⟩

theorem TakesLines.pure {α : Type} (a : α) (w : World) : TakesLines (Pure.pure a : Act α) w := .free rfl rfl

theorem TakesLines.stop {α : Type} (e : Stop) (w : World) : TakesLines (Model.stop e : Act α) w := .free rfl rfl

theorem TakesLines.bind {α β : Type} {x : Act α} {f : α → Act β} {w : World} (hx : TakesLines x w)
    (hf : ∀ a, (x w).1 = .ok a → TakesLines (f a) (x w).2) : TakesLines (x >>= f) w := by
  obtain ⟨ev, used, h1, h2, h3⟩ := hx
  unfold TakesLines
  rw [act_bind]
  rcases hxw : x w with ⟨r, w'⟩
  rw [hxw] at h1 h2 hf
  cases r with
  | error e => exact ⟨ev, used, h1, h2, h3⟩
  | ok a =>
    obtain ⟨ev', used', k1, k2, k3⟩ := hf a rfl
    refine ⟨ev ++ ev', used ++ used', ?_, ?_, ?_⟩
    · rw [k1, h1, List.append_assoc]
    · rw [h2, k2, List.append_assoc]
    · rw [taken_append, List.map_append]
      exact h3.append k3

theorem TakesLines.next (w : World) : TakesLines next w := by
  unfold TakesLines Model.next
  split
  · exact ⟨[], [], by simp, by simp, by simp [taken]⟩
  · rename_i n rest h
    exact ⟨[], [.elapsed n], by simp, by simp [h], by simp [taken]⟩
  · rename_i a rest _ h
    exact ⟨[], [a], by simp, by simp [h], by simp [taken]⟩

theorem TakesLines.emit {e : Effect} (h : ∀ s, e ≠ .took s) (w : World) : TakesLines (emit e) w := by
  refine ⟨[e], [], rfl, rfl, ?_⟩
  cases e <;> first | simp [taken]; done | exact absurd rfl (h _)

theorem TakesLines.lift {α : Type} (r : R α) (w : World) : TakesLines (lift r) w := by
  cases r with
  | ok a => exact .pure a w
  | error f => exact .stop _ w

theorem TakesLines.withTimeout {α : Type} {x : Act α} {w : World} (d : Nat) (hx : TakesLines x w) : TakesLines (withTimeout d x) w := by
  obtain ⟨ev, used, h1, h2, h3⟩ := hx
  refine ⟨ev, used, ?_, ?_, h3⟩
  · unfold Model.withTimeout; split <;> simp_all
  · unfold Model.withTimeout; split <;> simp_all

theorem TakesLines.readerNext (w : World) : TakesLines readerNext w := by
  unfold Model.readerNext
  refine .bind (.free rfl rfl) fun c _ => ?_
  split
  · exact .pure _ _
  · show TakesLines _ w
    unfold TakesLines
    rw [act_bind]
    unfold Model.next
    cases hs : w.script with
    | nil => exact ⟨[], [], by simp, by simp [hs], by simp [taken]⟩
    | cons a rest =>
      cases a with
      | line s => exact ⟨[.took s], [.line s], rfl, rfl, by simp [taken]⟩
      | _ => exact ⟨[], [_], (List.append_nil _).symm, rfl, by simp [taken]⟩

theorem TakesLines.recv (b : Build) (w : World) : TakesLines (recv b) w := by
  unfold Model.recv
  refine .bind (.readerNext _) fun x _ => ?_
  split
  · exact .bind (.lift _ _) fun m _ => by split <;> exact .pure _ _
  · exact .pure _ _
  · exact .pure _ _

theorem TakesLines.writeLoop : ∀ (n : Nat) (data : Bytes) (w : World), TakesLines (writeLoop n data) w
  | 0, _, _ => .pure _ _
  | n + 1, data, w => by
    rw [Model.writeLoop]
    split
    · exact .pure _ _
    · refine .bind (.next _) fun a _ => ?_
      split
      · split
        · exact .pure _ _
        · exact .bind (.emit (by simp) _) fun _ _ => TakesLines.writeLoop n _ _
      · exact .pure _ _
      · exact .stop _ _

theorem TakesLines.flush (w : World) : TakesLines flush w := by
  unfold Model.flush
  refine .bind (.next _) fun a _ => ?_
  split
  · exact .bind (.emit (by simp) _) fun _ _ => .pure _ _
  · exact .pure _ _
  · exact .stop _ _

theorem TakesLines.sendRaw (s : Bytes) (w : World) : TakesLines (sendRaw s) w := by
  unfold Model.sendRaw
  split
  · exact .pure _ _
  · exact .bind (.writeLoop _ _ _) fun r _ => by split <;> exact .pure _ _

theorem TakesLines.withScratch {α : Type} {body : Bytes → Act α} (h : ∀ s w, TakesLines (body s) w) (w : World) :
    TakesLines (withScratch body) w := by
  unfold Model.withScratch
  exact .bind (.free rfl rfl) fun _ _ => .bind (h _ _) fun _ _ => .bind (.free rfl rfl) fun _ _ => .pure _ _

theorem TakesLines.send (c : Cmd) (w : World) : TakesLines c.send w := by
  cases c with
  | join ch =>
    unfold Cmd.send joinChannel
    refine .bind (.free rfl rfl) fun _ _ => .bind (.sendRaw _ _) fun r _ => ?_
    split
    · exact .pure _ _
    · exact .bind (.free rfl rfl) fun _ _ => .pure _ _
  | raw s => exact .sendRaw _ _
  | privmsg ch t r n => exact .withScratch (fun _ _ => .sendRaw _ _) _
  | ping n => exact .withScratch (fun _ _ => .sendRaw _ _) _
  | pong n => exact .withScratch (fun _ _ => .sendRaw _ _) _
  | joinAll cs => exact .withScratch (fun _ _ => .sendRaw _ _) _

theorem TakesLines.recvReply (b : Build) (w : World) : TakesLines (recvReply b) w := by
  unfold Model.recvReply
  exact .bind (.withTimeout _ (.recv _ _)) fun r _ => by split <;> exact .pure _ _

theorem TakesLines.awaitWelcome (b : Build) (w : World) : TakesLines (awaitWelcome b) w := by
  unfold Model.awaitWelcome
  refine .bind (.recvReply _ _) fun r _ => ?_
  split
  · exact .pure _ _
  · refine .bind (.lift _ _) fun r _ => ?_
    split
    · exact .pure _ _
    · refine .bind (.recvReply _ _) fun r _ => ?_
      split
      · exact .pure _ _
      · refine .bind (.lift _ _) fun r _ => ?_
        split <;> exact .pure _ _

theorem TakesLines.handshake (b : Build) (w : World) : TakesLines (handshake b) w := by
  unfold Model.handshake
  refine .bind (.free rfl rfl) fun c _ => .bind (.free rfl rfl) fun _ _ => .bind (.writeLoop _ _ _) fun r _ => ?_
  split
  · exact .pure _ _
  · refine .bind (.flush _) fun r _ => ?_
    split
    · exact .pure _ _
    · exact .bind (.free rfl rfl) fun _ _ => .awaitWelcome _ _

theorem TakesLines.openStream (w : World) : TakesLines openStream w := by
  unfold Model.openStream
  refine .bind (.emit (by simp) _) fun _ _ => .bind (.next _) fun a _ => ?_
  split <;> first | exact .pure _ _ | exact .stop _ _

theorem TakesLines.connect (b : Build) (cfg : Config) (w : World) : TakesLines (connect b cfg) w := by
  unfold Model.connect
  refine .bind (.next _) fun a _ => ?_
  split
  · refine .bind (.withTimeout _ (.openStream _)) fun r _ => ?_
    split
    · exact .pure _ _
    · exact .pure _ _
    · refine .bind (.emit (by simp) _) fun _ _ => .bind (.free rfl rfl) fun _ _ =>
        .bind (.withTimeout _ (.handshake _ _)) fun r _ => ?_
      split <;> exact .pure _ _
  · exact .pure _ _
  · exact .stop _ _

theorem TakesLines.reconnectLoop (b : Build) (cfg : Config) : ∀ (fuel : Nat) (tries : Option Nat) (delay : Nat) (cause : ConnectError)
    (w : World), TakesLines (reconnectLoop b cfg fuel tries delay cause) w
  | 0, _, _, _, _ => .stop _ _
  | fuel + 1, tries, delay, cause, w => by
    rw [Model.reconnectLoop]
    split
    · exact .pure _ _
    · have hs : TakesLines (sleep delay) w := by
        unfold Model.sleep
        refine .bind (.emit (by simp) _) fun _ _ => .bind (.next _) fun a _ => ?_
        split <;> first | exact .pure _ _ | exact .stop _ _
      refine .bind hs fun _ _ => .bind (.lift _ _) fun d _ => .bind (.withTimeout _ (.openStream _)) fun r _ => ?_
      split
      · exact .pure _ _
      · exact TakesLines.reconnectLoop b cfg fuel _ _ _ _
      · refine .bind (.bind (.emit (by simp) _) fun _ _ => .free rfl rfl) fun _ _ =>
          .bind (.withTimeout _ (.handshake _ _)) fun r _ => ?_
        split
        · exact .pure _ _
        · split
          · exact TakesLines.reconnectLoop b cfg fuel _ _ _ _
          · exact .pure _ _
        · exact .pure _ _

theorem TakesLines.sendQ {x : Act (Except SendError Unit)} {w : World} (h : TakesLines x w) : TakesLines (sendQ x) w := by
  unfold Model.sendQ
  exact .bind h fun r _ => by split <;> exact .pure _ _

theorem TakesLines.botRound {handler : Privmsg → Act (Except SendError Unit)} (hh : ∀ p w, TakesLines (handler p) w) (b : Build)
    (channels : List Bytes) (w : World) : TakesLines (botRound handler b channels) w := by
  unfold Model.botRound
  refine .bind (.recv _ _) fun r _ => ?_
  split
  · exact .pure _ _
  · refine .bind (.lift _ _) fun r _ => ?_
    split
    · exact .pure _ _
    · exact .sendQ (hh _ _)
    · refine .bind (.reconnectLoop _ _ _ _ _ _ _) fun r _ => ?_
      split
      · exact .pure _ _
      · exact .sendQ (.send (.joinAll channels) _)
    · exact .sendQ (.send (.pong (Ping.nonce _)) _)
    · exact .pure _ _

theorem TakesLines.botLoop {handler : Privmsg → Act (Except SendError Unit)} (hh : ∀ p w, TakesLines (handler p) w) (b : Build)
    (channels : List Bytes) : ∀ (fuel : Nat) (w : World), TakesLines (botLoop handler b channels fuel) w
  | 0, _ => .stop _ _
  | fuel + 1, w => by
    rw [Model.botLoop]
    refine .bind (.botRound hh b channels w) fun r _ => ?_
    split
    · exact .pure _ _
    · exact TakesLines.botLoop hh b channels fuel _

theorem TakesLines.quickStart (p : Privmsg) (w : World) : TakesLines (quickStartOnMsg p) w := by
  unfold quickStartOnMsg
  exact .bind (.lift _ _) fun _ _ => .pure _ _

theorem TakesLines.onMsg (p : Privmsg) (w : World) : TakesLines (onMsg p) w := by
  unfold Model.onMsg
  refine .bind (.lift _ _) fun _ _ => .bind (.free rfl rfl) fun c _ => ?_
  split
  · exact .pure _ _
  · split
    · exact .pure _ _
    · exact .send (.privmsg p.channel (b!"yo") (some p.id) none) _

/-! ### After a successful reconnect the stream is open -/

/-- What holds if `x` returns. -/
def Post {α : Type} (x : Act α) (w : World) (Q : α → World → Prop) : Prop := ∀ a, (x w).1 = .ok a → Q a (x w).2

theorem Post.bind {α β : Type} {x : Act α} {f : α → Act β} {w : World} {Q : β → World → Prop}
    (h : Post x w fun a w' => Post (f a) w' Q) : Post (x >>= f) w Q := by
  intro b hb
  rw [act_bind] at hb ⊢
  rcases hx : x w with ⟨r, w'⟩
  rw [hx] at hb
  cases r with
  | error e => cases hb
  | ok a =>
    have := h a (by rw [hx])
    rw [hx] at this
    exact this b hb

theorem Post.pure {α : Type} {a : α} {w : World} {Q : α → World → Prop} (h : Q a w) : Post (Pure.pure a : Act α) w Q := by
  rintro _ ⟨⟩; exact h

theorem Post.stop {α : Type} {e : Stop} {w : World} {Q : α → World → Prop} : Post (Model.stop e : Act α) w Q := by
  rintro _ ⟨⟩

theorem Post.lift {α : Type} {r : R α} {w : World} {Q : α → World → Prop} (h : ∀ a, Q a w) : Post (Model.lift r) w Q := by
  cases r with
  | ok a => exact .pure (h a)
  | error f => exact .stop

theorem Post.local {α : Type} {x : Act α} {w : World} {Q : α → World → Prop} (hx : Local x w)
    (h : ∀ a w', w'.client.closed = w.client.closed → Q a w') : Post x w Q := fun a _ => h a _ hx.closed

theorem Post.withTimeout {α : Type} {d : Nat} {x : Act α} {w : World} {Q : α → World → Prop} {P : Except Unit α → World → Prop}
    (hx : Post x w Q) (h : ∀ a w', Q a w' → P (.ok a) w') (h' : ∀ w', P (.error ()) w') : Post (Model.withTimeout d x) w P := by
  intro a ha
  unfold Model.withTimeout at ha ⊢
  split at ha
  · rename_i a' w' hxw
    cases ha
    have := hx a' (by rw [hxw])
    rw [hxw] at this
    exact h _ _ this
  · cases ha; exact h' _
  · cases ha
  · cases ha

/-- An open stream stays open if something is received. -/
theorem recv_open (b : Build) (w : World) (hc : w.client.closed = false) :
    Post (recv b) w fun a w' => ∀ m, a = .ok m → w'.client.closed = false := by
  intro a ha m hm
  subst hm
  rw [recv_run, if_neg (by simp [hc])] at ha ⊢
  cases hs : w.script with
  | nil => rw [hs] at ha; cases ha
  | cons x rest =>
    rw [hs] at ha
    cases x with
    | line s =>
      simp only [] at ha ⊢
      split <;> exact hc
    | _ => cases ha

theorem recvReply_open (b : Build) (w : World) (hc : w.client.closed = false) :
    Post (recvReply b) w fun a w' => ∀ m, a = .ok m → w'.client.closed = false := by
  unfold recvReply
  refine .bind (.withTimeout (recv_open b w hc) (fun a w' h => ?_) fun w' => ?_)
  · cases a with
    | error e => exact .pure fun m hm => nomatch hm
    | ok m => exact .pure fun m' _ => h m rfl
  · exact .pure fun m hm => nomatch hm

theorem handshake_open (b : Build) (w : World) (hc : w.client.closed = false) :
    Post (handshake b) w fun a w' => a = .ok () → w'.client.closed = false := by
  unfold handshake
  refine .bind (.local (.getClient w) fun c w1 h1 => .bind (.local (.setScratch _ w1) fun _ w2 h2 =>
    .bind (.local (.writeAll _ w2) fun r w3 h3 => ?_)))
  cases r with
  | error e => exact .pure fun h => nomatch h
  | ok u =>
    refine .bind (.local (.flush w3) fun r w4 h4 => ?_)
    cases r with
    | error e => exact .pure fun h => nomatch h
    | ok u =>
      refine .bind (.local (.setScratch _ w4) fun _ w5 h5 => ?_)
      have hc5 : w5.client.closed = false := by rw [h5, h4, h3, h2, h1, hc]
      unfold awaitWelcome
      refine .bind fun r hr => ?_
      have k1 := recvReply_open b w5 hc5 r hr
      cases r with
      | error e => exact .pure fun h => nomatch h
      | ok m =>
        refine .bind (.lift fun o => ?_)
        cases o with
        | some e => exact .pure fun h => nomatch h
        | none =>
          refine .bind fun r hr => ?_
          have k2 := recvReply_open b _ (k1 m rfl) r hr
          cases r with
          | error e => exact .pure fun h => nomatch h
          | ok m' =>
            refine .bind (.lift fun o => ?_)
            cases o with
            | some e => exact .pure fun h => nomatch h
            | none => exact .pure fun _ => k2 m' rfl

theorem reconnect_open (b : Build) (cfg : Config) : ∀ (fuel : Nat) (tries : Option Nat) (delay : Nat) (cause : ConnectError)
    (w : World), Post (reconnectLoop b cfg fuel tries delay cause) w fun a w' => a = .ok () → w'.client.closed = false
  | 0, _, _, _, _ => .stop
  | fuel + 1, tries, delay, cause, w => by
    rw [Model.reconnectLoop]
    split
    · exact .pure fun h => nomatch h
    · refine .bind (.local (.sleep delay w) fun _ w1 _ => .bind (.lift fun d => .bind
        (.withTimeout (Q := fun _ _ => True) (fun _ _ => trivial) (fun a w2 _ => ?_) fun w2 => .pure fun h => nomatch h)))
      cases a with
      | error e => exact reconnect_open b cfg fuel _ _ _ _
      | ok u =>
        refine .bind fun _ _ => .bind ?_
        refine .withTimeout (handshake_open b _ rfl) (fun a w3 h => ?_) fun w3 => .pure fun h => nomatch h
        cases a with
        | error e =>
          simp only []
          split
          · exact reconnect_open b cfg fuel _ _ _ _
          · exact .pure fun h => nomatch h
        | ok u => exact .pure fun _ => h rfl

/-! ### What the server sends -/

/-- Everything that the server sends is a message of its kind, and what the programs do about it. -/
theorem utterance_typed (b : Build) (u : Utterance) (hu : u.Ok) (hr : Readable b u.line) :
    ∃ l M, line u.line = some l ∧ MessageOf l M ∧ Orderly u.line ∧
      ∀ greets, react greets u.line = match u, answerTo greets u with
        | .reconnect, _ => .rejoin
        | _, some c => .send c
        | _, none => .ignore := by
  cases u with
  | spoken s =>
    obtain ⟨l, hl, M, h1, h2, h3, h4⟩ := spoken_typed b s hu hr
    refine ⟨l, M, hl, h1, fun l' hl' => by rw [show line s.line = some l' from hl'] at hl; cases hl; exact h4, fun greets => ?_⟩
    simp only [Utterance.line] at hr ⊢
    by_cases hc : ∃ c, s = .said (.chat c)
    · obtain ⟨c, rfl⟩ := hc
      obtain ⟨p, rfl, hread⟩ := h2
      have e1 : p.text = c.text := hread.text
      have e2 : p.channel = HASH :: c.channel := hread.channel
      have e3 : p.id = c.id := hread.id
      by_cases hy : greets = true ∧ b!"!yo" <+: c.text
      · rw [react_yo hl h1 (by rw [e1]; exact hy), answerTo, if_pos hy, e2, e3]
      · rw [react_chat hl h1 (by rw [e1]; exact hy), answerTo, if_neg hy]
    · have hcmd : l.command ≠ b!"PING" ∧ l.command ≠ b!"RECONNECT" ∧ l.command ≠ b!"PRIVMSG" := by
        cases s with
        | said s =>
          cases s with
          | chat c => exact absurd ⟨c, rfl⟩ hc
          | _ => obtain ⟨v, rfl, -⟩ := h2; rw [h1.1]; decide
        | notified s =>
          cases s <;> obtain ⟨v, rfl, -⟩ := h2 <;> rw [h1.1] <;> decide
      rw [react_ignore hl h1 hcmd.1 hcmd.2.1 hcmd.2.2]
      have : answerTo greets (.spoken s) = none := by
        cases s with
        | said s => cases s <;> first | rfl | exact absurd ⟨_, rfl⟩ hc
        | notified s => rfl
      rw [this]
  | ping token =>
    have hl : line (b!"PING :" ++ token) = some ⟨[], none, b!"PING", none, some (COLON :: token)⟩ := by
      have e : b!"PING :" ++ token = b!"PING" ++ SP :: (COLON :: token) := rfl
      rw [e]
      unfold Spec.line
      rw [takeTags_other (by simp; decide)]
      simp only []
      rw [takePrefix_other (by simp; decide)]
      simp only []
      rw [takeToken_space (by decide)]
      simp only []
      rw [takeChannel_other (by simp; decide)]
      simp
    refine ⟨_, .ping ⟨some token⟩, hl, ⟨rfl, ⟨?_⟩⟩, fun l hl' hroom => ?_, fun greets => ?_⟩
    · rfl
    · rw [show line (b!"PING :" ++ token) = some l from hl'] at hl; cases hl; exact absurd (show b!"PING" = b!"ROOMSTATE" from hroom) (by decide)
    · exact react_ping hl (p := ⟨some token⟩) ⟨rfl, ⟨rfl⟩⟩
  | reconnect =>
    have hl : line (b!":tmi.twitch.tv RECONNECT") = some ⟨[], some (b!"tmi.twitch.tv"), b!"RECONNECT", none, none⟩ := by
      decide +kernel
    refine ⟨_, .reconnect, hl, rfl, fun l hl' hroom => ?_, fun greets => ?_⟩
    · rw [show line (b!":tmi.twitch.tv RECONNECT") = some l from hl'] at hl; cases hl; exact absurd (show b!"RECONNECT" = b!"ROOMSTATE" from hroom) (by decide)
    · exact react_reconnect hl rfl
  | reply command rest =>
    obtain ⟨h1, h2, h3⟩ := hu
    have e : (Utterance.reply command rest).line = COLON :: (b!"tmi.twitch.tv" ++ SP :: (command ++ SP :: rest)) := by
      simp [Utterance.line]
    obtain ⟨l, hl, hcmd⟩ : ∃ l, line (Utterance.reply command rest).line = some l ∧ l.command = command := by
      rw [e]
      unfold Spec.line
      rw [takeTags_other (by simp; decide)]
      simp only []
      rw [takePrefix_space _ (by decide)]
      simp only []
      rw [takeToken_space h2]
      simp only []
      rw [if_neg h1]
      exact ⟨_, rfl, rfl⟩
    have hM : MessageOf l (.other ⟨false, [], ⟨[], none, .ping, none, none⟩⟩) := by
      show l.command ∉ typedCommands
      rw [hcmd]; exact h3
    refine ⟨l, _, hl, hM, fun l' hl' hroom => ?_, fun greets => ?_⟩
    · rw [hl'] at hl; cases hl; rw [hcmd] at hroom; exact absurd (by rw [hroom]; decide +kernel) h3
    · exact react_ignore hl hM (fun h => h3 (by rw [← hcmd, h]; decide +kernel))
        (fun h => h3 (by rw [← hcmd, h]; decide +kernel)) (fun h => h3 (by rw [← hcmd, h]; decide +kernel))

theorem fromServer_lines {b : Build} {script : List Answer} (h : FromServer b script) :
    AllReadable b script ∧ (∀ s, .line s ∈ script → Orderly s) ∧
    ∀ s, .line s ∈ script → ∃ l M, line s = some l ∧ MessageOf l M := by
  refine ⟨fun s hs => (h s hs).1, fun s hs => ?_, fun s hs => ?_⟩
  · obtain ⟨hr, u, hu, rfl⟩ := h s hs
    obtain ⟨l, M, -, -, ho, -⟩ := utterance_typed b u hu hr
    exact ho
  · obtain ⟨hr, u, hu, rfl⟩ := h s hs
    obtain ⟨l, M, h1, h2, -⟩ := utterance_typed b u hu hr
    exact ⟨l, M, h1, h2⟩

end Tmi.Proofs
