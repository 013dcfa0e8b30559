/-
Flushing.
-/
import Verif.Proofs.Leftover
import Verif.Proofs.Sending
import Verif.Spec.Flush

namespace Tmi.Proofs
open Tmi.Model Tmi.Spec

theorem unflushed_append (l m : List Effect) : unflushed (l ++ m) = m.foldl hold (unflushed l) := by
  unfold unflushed
  rw [List.foldl_append]

theorem unflushed_flush (l : List Effect) : unflushed (l ++ [.flush]) = [] := by
  rw [unflushed_append]; rfl

theorem unflushed_took (l : List Effect) (ss : List Bytes) :
    unflushed (l ++ ss.map Effect.took) = unflushed l := by
  rw [unflushed_append]
  induction ss with
  | nil => rfl
  | cons s r ih => exact ih

theorem unflushed_writes (l : List Effect) : ∀ {ev : List Effect}, OnlyWrites ev →
    unflushed (l ++ ev) = unflushed l ++ written ev := by
  intro ev h
  induction ev generalizing l with
  | nil => simp [written]
  | cons e r ih =>
    obtain ⟨bs, rfl⟩ := h e (List.mem_cons_self)
    have := ih (l ++ [.wrote bs]) (fun e he => h e (List.mem_cons_of_mem _ he))
    rw [List.append_assoc, List.singleton_append] at this
    rw [this, unflushed_append l]
    simp [written, hold]

/-- When `x` succeeds nothing is held back. -/
def Leaves {ε : Type} (x : Act (Except ε Unit)) : Prop :=
  ∀ w, (x w).1 = .ok (.ok ()) → unflushed (x w).2.log = []

theorem Leaves.error {ε : Type} (e : ε) : Leaves (pure (.error e)) := by
  intro w h; simp [act_pure] at h

theorem Leaves.stop {ε : Type} (s : Stop) : Leaves (Model.stop s : Act (Except ε Unit)) := by
  intro w h; simp [Model.stop] at h

theorem Leaves.bind {ε α : Type} {x : Act α} {f : α → Act (Except ε Unit)} (h : ∀ a, Leaves (f a)) :
    Leaves (x >>= f) := by
  intro w
  rw [act_bind]
  cases hx : x w with
  | mk r v =>
    cases r with
    | ok a => exact h a v
    | error e => intro h; simp at h

theorem Leaves.timed {ε : Type} {x : Act (Except ε Unit)} (hx : Leaves x) (t : Nat)
    {f : Except Unit (Except ε Unit) → Act (Except ε Unit)} (h1 : Leaves (f (.error ())))
    (h2 : ∀ e, Leaves (f (.ok (.error e)))) (h3 : f (.ok (.ok ())) = pure (.ok ())) :
    Leaves (withTimeout t x >>= f) := by
  intro w
  rw [act_bind]
  have hw := hx w
  unfold withTimeout
  generalize x w = p at hw ⊢
  obtain ⟨r, v⟩ := p
  rcases r with (_ | (_ | _) | _) | (e | u)
  case ok.ok => simp only []; rw [h3]; simp only [act_pure]; exact fun _ => hw rfl
  case ok.error => exact h2 e v
  all_goals first
    | exact h1 v
    | (intro h; simp at h)

theorem handshake_leaves (b : Build) : Leaves (handshake b) := by
  intro w
  rw [handshake_eq]
  generalize ({ w with client := { w.client with
          scratch := w.client.scratch ++ hello w.client.config.credentials } } : World) = v
  revert v
  refine Leaves.bind fun a => ?_
  cases a with
  | error e => exact .error _
  | ok _ =>
    intro w
    simp only []
    rw [act_bind]
    unfold flush
    rw [act_bind]
    rcases next_cases w with ⟨hs, hn⟩ | ⟨n, rest, hs, hn⟩ | ⟨a, rest, hs, hne, hn⟩
    · rw [hn]; intro h; simp at h
    · rw [hn]; intro h; simp at h
    · rw [hn]
      cases a with
      | elapsed n => exact absurd rfl (hne n)
      | flushed =>
        simp only [act_bind, emit, act_pure, setScratch]
        intro _
        obtain ⟨⟨ss, k1⟩, -, -, -⟩ := awaitWelcome_keeps b
          { client := { w.client with scratch := [] }, log := w.log ++ [.flush], script := rest }
        rw [k1, unflushed_took]
        exact unflushed_flush _
      | flushFailed e => intro h; simp [act_pure] at h
      | _ => intro h; simp [stop] at h

theorem connect_leaves (b : Build) (cfg : Config) : Leaves (connect b cfg) := by
  unfold connect
  refine Leaves.bind fun a => ?_
  cases a with
  | tlsLoaded =>
    refine Leaves.bind fun a => ?_
    rcases a with _ | (e | u)
    · exact .error _
    · exact .error _
    · exact Leaves.bind fun _ => Leaves.bind fun _ =>
        (handshake_leaves b).timed _ (.error _) (fun e => .error e) rfl
  | tlsFailed => exact .error _
  | _ => exact .stop _

theorem reconnectLoop_leaves (b : Build) (cfg : Config) :
    ∀ (fuel : Nat) (tries : Option Nat) (d : Nat) (cause : ConnectError),
    Leaves (reconnectLoop b cfg fuel tries d cause)
  | 0, _, _, _ => .stop _
  | fuel + 1, tries, d, cause => by
    rw [reconnectLoop]
    by_cases ht : tries = some 0
    · rw [if_pos ht]; exact .error _
    rw [if_neg ht]
    refine Leaves.bind fun _ => Leaves.bind fun d' => ?_
    simp only []
    refine Leaves.bind fun a => ?_
    rcases a with _ | (e | u)
    · exact .error _
    · exact reconnectLoop_leaves b cfg fuel _ _ _
    · refine Leaves.bind fun _ => (handshake_leaves b).timed _ (.error _) (fun e => ?_) rfl
      simp only []
      by_cases hr : e.shouldRetry = true
      · rw [if_pos hr]; exact reconnectLoop_leaves b cfg fuel _ _ _
      · rw [if_neg hr]; exact .error _

/-- A sending call does nothing but write. -/
theorem send_onlyWrites (c : Cmd) (w : World) :
    ∃ ev, (c.send w).2.log = w.log ++ ev ∧ OnlyWrites ev := by
  by_cases hc : ∀ s, c ≠ .raw s
  · obtain ⟨⟨⟨ev, h1, h2, -⟩, -⟩, -⟩ := send_effect c hc w
    exact ⟨ev, h1, h2⟩
  · cases c with
    | raw s =>
      by_cases hs : endsWith [CR, LF] s = true
      · obtain ⟨⟨⟨ev, h1, h2, -⟩, -⟩, -⟩ := sendRaw_effect hs w
        exact ⟨ev, h1, h2⟩
      · refine ⟨[], ?_, by simp [OnlyWrites]⟩
        simp only [Cmd.send, sendRaw, rawMessage]
        rw [if_neg hs]
        simp [act_pure]
    | _ => simp at hc

theorem recv_onlyTakes (b : Build) (w : World) : ∃ ss, (recv b w).2.log = w.log ++ List.map Effect.took ss := by
  rw [recv_run]
  split
  · exact ⟨[], by simp⟩
  · split
    case h_3 => simp only []; split <;> exact ⟨[_], rfl⟩
    all_goals exact ⟨[], by simp⟩

end Tmi.Proofs
