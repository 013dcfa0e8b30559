/-
Lemmas about histories of calls and about the lines on the wire.
-/
import Verif.Proofs.Reconnect

namespace Tmi.Proofs
open Tmi.Model Tmi.Spec

/-! ### The buffer over a history -/

theorem copies_zero (s : Bytes) : copies 0 s = [] := rfl

theorem copies_succ (n : Nat) (s : Bytes) : copies (n + 1) s = copies n s ++ s := by
  unfold copies
  rw [List.replicate_succ', List.flatten_append]
  simp

/-- The handshake leaves the buffer empty or adds one greeting to it. -/
theorem handshake_pending (b : Build) (w : World) :
    (handshake b w).2.client.scratch = [] ∨
    (handshake b w).2.client.scratch = w.client.scratch ++ hello w.client.config.credentials := by
  obtain ⟨ws, ss, _, _, _, h | h⟩ := (handshake_effect b w).log
  · exact .inl h.1
  · exact .inr h.1

/-- The buffer holds some number of greetings. -/
def Pending (w : World) : Prop := ∃ k, w.client.scratch = copies k (hello w.client.config.credentials)

theorem handshake_copies (b : Build) (w : World) (h : Pending w) : Pending (handshake b w).2 := by
  obtain ⟨k, hk⟩ := h
  have hc := (handshake_effect b w).config
  rcases handshake_pending b w with h | h
  · exact ⟨0, by rw [h]; rfl⟩
  · exact ⟨k + 1, by rw [h, hc, hk, copies_succ]⟩

theorem reconnectLoop_copies (b : Build) (cfg : Config) : ∀ (fuel : Nat) (tries : Option Nat) (d : Nat)
    (cause : ConnectError) (w : World), Pending w →
    Pending (reconnectLoop b cfg fuel tries d cause w).2
  | 0, tries, d, cause, w, h => h
  | fuel + 1, tries, d, cause, w, h => by
    rw [reconnectLoop]
    by_cases ht : tries = some 0
    · rw [if_pos ht]; exact h
    rw [if_neg ht, act_bind, sleep_run]
    cases hs : w.script with
    | nil => exact h
    | cons a rest =>
      cases a with
      | slept =>
        simp only []
        rw [act_bind]
        cases hm : mulDuration d cfg.backoff.delayMultiplier with
        | error f => exact h
        | ok x =>
          simp only [lift, act_pure]
          rw [act_bind, open_run]
          simp only []
          cases hr : rest with
          | nil => exact h
          | cons a' rest' =>
            cases a' with
            | elapsed n => cases n <;> exact h
            | openFailed e =>
              simp only []
              exact reconnectLoop_copies b cfg fuel _ _ _ _ h
            | opened =>
              simp only [useStream, act_bind, emit, setClosed]
              generalize hw1 : World.mk (Client.mk false w.client.scratch w.client.config)
                (w.log ++ [.sleep d] ++ [.open_] ++ [.connected]) rest' = w1
              have hp : Pending w1 := by rw [← hw1]; exact h
              have hh := handshake_copies b w1 hp
              unfold withTimeout
              cases hres : handshake b w1 with
              | mk r w2 =>
                rw [hres] at hh
                cases r with
                | error s =>
                  cases s with
                  | elapsed n => cases n <;> exact hh
                  | dropped => exact hh
                  | panic f => exact hh
                | ok r =>
                  cases r with
                  | error e =>
                    simp only []
                    by_cases hsr : e.shouldRetry = true
                    · rw [if_pos hsr]
                      exact reconnectLoop_copies b cfg fuel _ _ _ _ hh
                    · rw [if_neg hsr]; exact hh
                  | ok u => exact hh
            | _ => exact h
      | _ => exact h

theorem recv_keeps (b : Build) (w : World) : (recv b w).2.client.scratch = w.client.scratch ∧
    (recv b w).2.client.config = w.client.config := by
  rw [recv_run]
  split
  · exact ⟨rfl, rfl⟩
  · split <;> try exact ⟨rfl, rfl⟩
    simp only []
    split <;> exact ⟨rfl, rfl⟩

theorem send_config (c : Cmd) (w : World) : (c.send w).2.client.config = w.client.config := by
  by_cases hc : ∃ s, c = .raw s
  · obtain ⟨s, rfl⟩ := hc
    show (sendRaw s w).2.client.config = _
    by_cases hs : endsWith [CR, LF] s = true
    · rw [(sendRaw_effect hs w).2]
    · rw [sendRaw_invalid hs]
  · exact (send_effect c (fun s h => hc ⟨s, h⟩) w).1.config

theorem raw_scratch (s : Bytes) (w : World) : (Cmd.send (.raw s) w).2.client.scratch = w.client.scratch := by
  show (sendRaw s w).2.client.scratch = _
  by_cases hs : endsWith [CR, LF] s = true
  · rw [(sendRaw_effect hs w).2]
  · rw [sendRaw_invalid hs]

theorem settled_snoc (h : List (Op × Bool)) (op : Op) (ok : Bool) :
    settled (h ++ [(op, ok)]) = match op with
      | .reconnect _ => ok
      | .send (.raw _) => settled h
      | .send _ => true
      | .recv _ => settled h := by
  unfold settled
  rw [List.foldl_append]
  rfl

/-- At any time the buffer holds some number of greetings, none when the history is settled. -/
theorem history_pending {w₀ w : World} {h : List (Op × Bool)} (hist : History w₀ h w)
    (h₀ : w₀.client.scratch = []) :
    w.client.config = w₀.client.config ∧ Pending w ∧ (settled h = true → w.client.scratch = []) := by
  induction hist with
  | start => exact ⟨rfl, ⟨0, h₀⟩, fun _ => h₀⟩
  | @call h w hist op answers ih =>
    obtain ⟨i1, ⟨k, i2⟩, i3⟩ := ih
    rw [settled_snoc]
    cases op with
    | recv b =>
      obtain ⟨r1, r2⟩ := recv_keeps b { w with script := answers }
      simp only [Op.run]
      exact ⟨r2.trans i1, ⟨k, by rw [r1, r2]; exact i2⟩, fun h => by rw [r1]; exact i3 h⟩
    | reconnect b =>
      have e := reconnectLoop_effect b w.client.config (answers.length + 1)
        w.client.config.backoff.maxTries w.client.config.backoff.initialDelay .timeout
        { w with script := answers }
      have p := reconnectLoop_copies b w.client.config (answers.length + 1)
        w.client.config.backoff.maxTries w.client.config.backoff.initialDelay .timeout
        { w with script := answers } ⟨k, i2⟩
      have hr : reconnect b { w with script := answers } =
        reconnectLoop b w.client.config (answers.length + 1)
          w.client.config.backoff.maxTries w.client.config.backoff.initialDelay .timeout
          { w with script := answers } := rfl
      simp only [Op.run]
      rw [hr]
      refine ⟨e.config.trans i1, p, fun h => e.scratch ?_⟩
      generalize reconnectLoop b w.client.config (answers.length + 1)
          w.client.config.backoff.maxTries w.client.config.backoff.initialDelay .timeout
          { w with script := answers } = x at h
      obtain ⟨r, w'⟩ := x
      cases r with
      | error s => simp [returnedOk] at h
      | ok r =>
        cases r with
        | error e => simp [returnedOk] at h
        | ok u => rfl
    | send c =>
      have hcfg := send_config c { w with script := answers }
      by_cases hraw : ∃ s, c = .raw s
      · obtain ⟨s, rfl⟩ := hraw
        have hr := raw_scratch s { w with script := answers }
        simp only [Op.run]
        exact ⟨hcfg.trans i1, ⟨k, by rw [hr, hcfg]; exact i2⟩, fun h => by rw [hr]; exact i3 h⟩
      · have := (send_effect c (fun s h => hraw ⟨s, h⟩) { w with script := answers }).2
        simp only [Op.run]
        exact ⟨hcfg.trans i1, ⟨0, by rw [this]; rfl⟩, fun _ => this⟩

/-! ### Lines on the wire -/

theorem fields_length (x : UInt8) : ∀ (n : Nat) (s : Bytes), s.length ≤ n →
    (fields x s).length = s.count x + 1 := by
  intro n
  induction n with
  | zero =>
    intro s h
    have : s = [] := by simpa using h
    subst this
    rw [fields_none (by simp)]; rfl
  | succ n ih =>
    intro s h
    by_cases hx : x ∈ s
    · obtain ⟨a, b, rfl, ha⟩ := mem_split hx
      rw [fields_some b ha, List.length_cons, ih b (by simp at h; omega), List.count_append,
        List.count_cons_self, List.count_eq_zero.2 ha]
      omega
    · rw [fields_none hx, List.count_eq_zero.2 hx]; rfl

theorem fields_append (x : UInt8) (a b : Bytes) (ha : x ∉ a) :
    fields x (a ++ x :: b) = a :: fields x b := fields_some b ha

theorem stripCR_crlf (l : Bytes) : stripCR (l ++ [CR]) = l := by
  unfold stripCR
  simp

theorem receivedLines_nil : receivedLines [] = [] := by
  unfold receivedLines; rw [fields_none (by simp)]; rfl

theorem receivedLines_cons (l wire : Bytes) (hl : LF ∉ l) :
    receivedLines (l ++ [CR, LF] ++ wire) = l :: receivedLines wire := by
  unfold receivedLines
  have : l ++ [CR, LF] ++ wire = (l ++ [CR]) ++ LF :: wire := by simp
  rw [this, fields_some wire (by simp; exact ⟨hl, by decide⟩)]
  rw [List.dropLast_cons_of_ne_nil (fields_ne_nil _ _), List.map_cons, stripCR_crlf]

theorem receivedLines_length (wire : Bytes) : (receivedLines wire).length = wire.count LF := by
  unfold receivedLines
  rw [List.length_map, List.length_dropLast, fields_length LF _ wire (Nat.le_refl _)]
  omega

theorem le_sum {x : Nat} : ∀ {l : List Nat}, x ∈ l → x ≤ l.sum
  | y :: l, h => by
    rw [List.sum_cons]
    rcases List.mem_cons.1 h with rfl | h
    · omega
    · have := le_sum h; omega

/-- One line per piece of a concatenation of terminated lines, exactly when no piece contains LF. -/
theorem receivedLines_join (ls : List Bytes) :
    receivedLines (ls.flatMap fun l => l ++ [CR, LF]) = ls ↔ ∀ l ∈ ls, LF ∉ l := by
  constructor
  · intro h
    have hlen := congrArg List.length h
    rw [receivedLines_length] at hlen
    have hc : (ls.flatMap fun l => l ++ [CR, LF]).count LF = (ls.map fun l => l.count LF).sum + ls.length := by
      clear h hlen
      induction ls with
      | nil => rfl
      | cons l ls ih =>
        rw [List.flatMap_cons, List.count_append, ih, List.count_append]
        have : ([CR, LF] : Bytes).count LF = 1 := by decide
        rw [this, List.map_cons, List.sum_cons, List.length_cons]
        omega
    intro l hl hm
    rw [hc] at hlen
    have h0 : (ls.map fun l => l.count LF).sum = 0 := by omega
    have : l.count LF ≤ (ls.map fun l => l.count LF).sum := le_sum (List.mem_map.2 ⟨l, hl, rfl⟩)
    have := List.count_pos_iff.2 hm
    omega
  · intro h
    induction ls with
    | nil => exact receivedLines_nil
    | cons l ls ih =>
      rw [List.flatMap_cons, receivedLines_cons _ _ (h l (by simp)),
        ih fun l hl => h l (List.mem_cons_of_mem _ hl)]

end Tmi.Proofs
