/-
Sending with a subscriber: the run without, and the records of `Cmd.trace`.
-/
import Verif.Proofs.Logged

namespace Tmi.Proofs
open Model Spec

/-- The record of data that is sent. -/
def sending (data : Bytes) : Record := ⟨b!"sending message", some data⟩

theorem lact_bind_ok {α β : Type} {x : Logged.LAct α} {f : α → Logged.LAct β} {w w' : World × List Record} {a : α}
    (h : x w = (.ok a, w')) : (x >>= f) w = f a w' := by rw [lact_bind, h]

theorem lact_bind_error {α β : Type} {x : Logged.LAct α} {f : α → Logged.LAct β} {w w' : World × List Record} {e : Stop}
    (h : x w = (.error e, w')) : (x >>= f) w = (.error e, w') := by rw [lact_bind, h]

theorem act_ran {α : Type} {y : Act α} {w w' : World} {r : Except Stop α} (h : y w = (r, w')) (rs : List Record) :
    Logged.act y (w, rs) = (r, (w', rs)) := by
  unfold Logged.act
  rw [h]

theorem logged_sendRaw (s : Bytes) (w : World) (rs : List Record) :
    Logged.sendRaw s (w, rs) = ((sendRaw s w).1, ((sendRaw s w).2, rs ++ (sendRawTrace s).map sending)) := by
  unfold Logged.sendRaw sendRaw sendRawTrace
  cases rawMessage s with
  | none =>
    show (_, (_, _)) = _
    simp
    exact ⟨rfl, rfl⟩
  | some data =>
    dsimp only
    rw [lact_bind_ok (x := Logged.trace ⟨b!"sending message", some data⟩) (w := (w, rs)) (w' := (w, rs ++ [sending data])) (a := ()) rfl]
    cases h : writeAll data w with
    | mk r w' =>
      cases r with
      | error e => rw [lact_bind_error (act_ran h _), act_bind_error h]; rfl
      | ok r => rw [lact_bind_ok (act_ran h _), act_bind_ok h]; cases r <;> rfl

theorem logged_withScratch {text : Bytes} (w : World) (rs : List Record) :
    Logged.withScratch (fun f => Logged.sendRaw (f ++ text)) (w, rs) =
      ((withScratch (fun f => sendRaw (f ++ text)) w).1, ((withScratch (fun f => sendRaw (f ++ text)) w).2,
        rs ++ (sendRawTrace (w.client.scratch ++ text)).map sending)) := by
  unfold Logged.withScratch withScratch
  rw [lact_bind_ok (x := Logged.act takeScratch) (w := (w, rs)) (a := w.client.scratch) (w' := ({ w with client := { w.client with scratch := [] } }, rs)) rfl,
    act_bind_ok (x := takeScratch) (w := w) (a := w.client.scratch) (w' := { w with client := { w.client with scratch := [] } }) rfl]
  have e := logged_sendRaw (w.client.scratch ++ text) { w with client := { w.client with scratch := [] } } rs
  cases h : sendRaw (w.client.scratch ++ text) { w with client := { w.client with scratch := [] } } with
  | mk r w' =>
    rw [h] at e
    cases r with
    | error _ => rw [lact_bind_error e, act_bind_error h]
    | ok _ => rw [lact_bind_ok e, act_bind_ok h]; rfl

theorem logged_join (ch : Bytes) (w : World) (rs : List Record) :
    Logged.joinChannel ch (w, rs) =
      ((joinChannel ch w).1, ((joinChannel ch w).2,
        rs ++ (sendRawTrace (w.client.scratch ++ (b!"JOIN " ++ displayChannel ch ++ [CR, LF]))).map sending)) := by
  unfold Logged.joinChannel joinChannel
  generalize b!"JOIN " ++ displayChannel ch ++ [CR, LF] = text
  rw [lact_bind_ok (x := Logged.act takeScratch) (w := (w, rs)) (a := w.client.scratch) (w' := ({ w with client := { w.client with scratch := [] } }, rs)) rfl,
    act_bind_ok (x := takeScratch) (w := w) (a := w.client.scratch) (w' := { w with client := { w.client with scratch := [] } }) rfl]
  have e := logged_sendRaw (w.client.scratch ++ text) { w with client := { w.client with scratch := [] } } rs
  cases h : sendRaw (w.client.scratch ++ text) { w with client := { w.client with scratch := [] } } with
  | mk r w' =>
    rw [h] at e
    cases r with
    | error _ => rw [lact_bind_error e, act_bind_error h]
    | ok r => rw [lact_bind_ok e, act_bind_ok h]; cases r <;> rfl

theorem logged_send (c : Cmd) (w : World) (rs : List Record) :
    Logged.send c (w, rs) = ((c.send w).1, ((c.send w).2, rs ++ (c.trace w.client).map sending)) := by
  cases c with
  | privmsg ch t r n => exact logged_withScratch w rs
  | ping n => exact logged_withScratch w rs
  | pong n => cases n <;> exact logged_withScratch w rs
  | join ch => exact logged_join ch w rs
  | joinAll chs => exact logged_withScratch w rs
  | raw s => exact logged_sendRaw s w rs

end Tmi.Proofs
