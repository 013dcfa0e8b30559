/-
Lemmas: the handshake refines its specification.
-/
import Verif.Proofs.CommandLine
import Verif.Props.Sizes

namespace Tmi.Proofs
open Tmi.Model Tmi.Spec

theorem _root_.Tmi.Spec.AllParse.suffix {b : Build} {s t : List Answer} (h : AllParse b s) (hs : t <:+ s) :
    AllParse b t := fun x hx => h x (hs.subset hx)

theorem owned_parse_none {b : Build} {s : Bytes} (hr : Readable b s) (hl : line s = none) :
    MsgOwned.parse b s = .ok none := by
  have h := parse_refines b hr.1 hr.2.1 hr.2.2
  rw [hl] at h
  unfold MsgOwned.parse
  rw [h]
  rfl

theorem owned_parse_some {b : Build} {s : Bytes} (hr : Readable b s) {l : Line} (hl : line s = some l) :
    MsgOwned.parse b s = .ok (some (parsed b s)) ∧ (parsed b s).src = s ∧
      Represents (parsed b s).asRef l := by
  have h := parse_refines b hr.1 hr.2.1 hr.2.2
  rw [hl] at h
  obtain ⟨m, h1, h2, h3, h4⟩ := h
  have h5 : MsgOwned.parse b s = .ok (some ⟨m.checks, s, m.parts⟩) := by
    unfold MsgOwned.parse
    rw [h1]
    rfl
  have h6 : parsed b s = ⟨m.checks, s, m.parts⟩ := by unfold parsed; rw [h5]
  rw [h6]
  refine ⟨h5, rfl, ?_⟩
  have : (MsgOwned.mk m.checks s m.parts).asRef = m := by
    unfold MsgOwned.asRef; rw [← h2]
  rw [this]
  exact h4

theorem _root_.Tmi.Spec.Readable.parses {b : Build} {s : Bytes} (hr : Readable b s) : Parses b s := by
  refine ⟨hr.1, hr.2.1.len, ?_⟩
  have h := parse_refines b hr.1 hr.2.1 hr.2.2
  split at h
  · exact ⟨_, h⟩
  · obtain ⟨m, h, _⟩ := h
    exact ⟨_, h⟩

theorem _root_.Tmi.Spec.AllReadable.parse {b : Build} {s : List Answer} (h : AllReadable b s) : AllParse b s :=
  fun x hx => (h x hx).parses

theorem parses_none {b : Build} {s : Bytes} (hr : Parses b s) (hl : line s = none) :
    MsgOwned.parse b s = .ok none := by
  obtain ⟨hu, hlen, r, h⟩ := hr
  have h' := Props.returned_rest hu hlen h
  rw [hl] at h'
  unfold MsgOwned.parse
  rw [h, h']
  rfl

theorem parses_some {b : Build} {s : Bytes} (hr : Parses b s) {l : Line} (hl : line s = some l) :
    MsgOwned.parse b s = .ok (some (parsed b s)) ∧ (parsed b s).src = s ∧ RestOf (parsed b s).asRef l := by
  obtain ⟨hu, hlen, r, h⟩ := hr
  have h' := Props.returned_rest hu hlen h
  rw [hl] at h'
  obtain ⟨m, rfl, h2, _, _, h4⟩ := h'
  have h5 : MsgOwned.parse b s = .ok (some ⟨m.checks, s, m.parts⟩) := by
    unfold MsgOwned.parse
    rw [h]
    rfl
  have h6 : parsed b s = ⟨m.checks, s, m.parts⟩ := by unfold parsed; rw [h5]
  rw [h6]
  refine ⟨h5, rfl, ?_⟩
  have : (MsgOwned.mk m.checks s m.parts).asRef = m := by
    unfold MsgOwned.asRef; rw [← h2]
  rw [this]
  exact h4

theorem command_cap {l : Line} : commandOf l.command = .capability ↔ l.command = b!"CAP" :=
  commandOf_known (c := .capability) (by intro s; simp) l.command

/-- The checks, as the specification says. -/
theorem checkCap_spec {m : MsgOwned} {l : Line} (hR : RestOf m.asRef l) (o : Option ConnectError) :
    checkCap m = .ok o ↔ FirstReply l m o := by
  have hc : m.command = .ok (commandOf l.command) := hR.command
  have hp : m.params = .ok l.params := hR.params
  by_cases h : l.command = b!"CAP"
  · unfold checkCap
    rw [hc, bind_ok]
    rw [command_cap.2 h]
    simp only [hp, bind_ok]
    cases hpp : l.params with
    | none =>
      have hna : ¬ IsCapAck l := by rintro ⟨_, v, hv, _⟩; rw [hpp] at hv; simp at hv
      constructor
      · intro e; cases e; exact .refused h hna
      · intro e; cases e with
        | ack h' => exact absurd h' hna
        | refused _ _ => rfl
        | other h' => exact absurd h h'
    | some v =>
      simp only []
      by_cases hv : hasPrefix (b!"* ACK") v = true
      · rw [if_pos hv]
        have hna : IsCapAck l := ⟨h, v, hpp, (hasPrefix_iff _ _).1 hv⟩
        constructor
        · intro e; cases e; exact .ack hna
        · intro e; cases e with
          | ack h' => rfl
          | refused _ h' => exact absurd hna h'
          | other h' => exact absurd h h'
      · rw [if_neg hv]
        have hna : ¬ IsCapAck l := by
          rintro ⟨_, v', hv', hx⟩
          rw [hpp] at hv'; simp at hv'; subst hv'
          exact hv ((hasPrefix_iff _ _).2 hx)
        constructor
        · intro e; cases e; exact .refused h hna
        · intro e; cases e with
          | ack h' => exact absurd h' hna
          | refused _ _ => rfl
          | other h' => exact absurd h h'
  · have hne : commandOf l.command ≠ .capability := fun e => h (command_cap.1 e)
    have : checkCap m = .ok (some (.welcome m)) := by
      unfold checkCap
      rw [hc, bind_ok]
      split
      · exact absurd ‹_› hne
      · rfl
    rw [this]
    constructor
    · intro e; cases e; exact .other h
    · intro e; cases e with
      | ack h' => exact absurd h'.1 h
      | refused h' _ => exact absurd h' h
      | other h' => rfl

theorem checkWelcome_spec {m : MsgOwned} {l : Line} (hR : RestOf m.asRef l) (o : Option ConnectError) :
    checkWelcome m = .ok o ↔ SecondReply l m o := by
  have hc : m.command = .ok (commandOf l.command) := hR.command
  have hp : m.params = .ok l.params := hR.params
  have c1 : commandOf l.command = .rplWelcome ↔ l.command = b!"001" :=
    commandOf_known (c := .rplWelcome) (by intro s; simp) l.command
  have c2 : commandOf l.command = .notice ↔ l.command = b!"NOTICE" :=
    commandOf_known (c := .notice) (by intro s; simp) l.command
  by_cases h : l.command = b!"001"
  · unfold checkWelcome
    rw [hc, bind_ok]
    rw [c1.2 h]
    have hn : l.command ≠ b!"NOTICE" := by rw [h]; decide
    constructor
    · intro e; cases e; exact .welcome h
    · intro e; cases e with
      | welcome _ => rfl
      | denied h' => exact absurd h'.1 hn
      | notice h' _ => exact absurd h' hn
      | other h' _ => exact absurd h h'
  · by_cases h2 : l.command = b!"NOTICE"
    · unfold checkWelcome
      rw [hc, bind_ok]
      rw [c2.2 h2]
      simp only [hp, bind_ok]
      cases hpp : l.params with
      | none =>
        have hna : ¬ IsAuthNotice l := by rintro ⟨_, v, hv, _⟩; rw [hpp] at hv; simp at hv
        constructor
        · intro e; cases e; exact .notice h2 hna
        · intro e; cases e with
          | welcome h' => exact absurd h' h
          | denied h' => exact absurd h' hna
          | notice _ _ => rfl
          | other _ h' => exact absurd h2 h'
      | some v =>
        simp only []
        by_cases hv : containsStr (b!"authentication failed") v = true
        · rw [if_pos hv]
          have hna : IsAuthNotice l := ⟨h2, v, hpp, (containsStr_iff _ _).1 hv⟩
          constructor
          · intro e; cases e; exact .denied hna
          · intro e; cases e with
            | welcome h' => exact absurd h' h
            | denied h' => rfl
            | notice _ h' => exact absurd hna h'
            | other _ h' => exact absurd h2 h'
        · rw [if_neg hv]
          have hna : ¬ IsAuthNotice l := by
            rintro ⟨_, v', hv', hx⟩
            rw [hpp] at hv'; simp at hv'; subst hv'
            exact hv ((containsStr_iff _ _).2 hx)
          constructor
          · intro e; cases e; exact .notice h2 hna
          · intro e; cases e with
            | welcome h' => exact absurd h' h
            | denied h' => exact absurd h' hna
            | notice _ _ => rfl
            | other _ h' => exact absurd h2 h'
    · have : checkWelcome m = .ok (some (.welcome m)) := by
        unfold checkWelcome
        rw [hc, bind_ok]
        split
        · exact absurd (c1.1 ‹_›) h
        · exact absurd (c2.1 ‹_›) h2
        · rfl
      rw [this]
      constructor
      · intro e; cases e; exact .other h h2
      · intro e; cases e with
        | welcome h' => exact absurd h' h
        | denied h' => exact absurd h'.1 h2
        | notice h' _ => exact absurd h' h2
        | other h' => rfl

/-- The result of waiting for a reply in the terms of the specification. -/
def toReply (b : Build) : Except ConnectError (Line × Bytes) → Except ConnectError MsgOwned
  | .ok (_, s) => .ok (parsed b s)
  | .error e => .error e

theorem recvReply_spec {b : Build} {w : World} (hc : w.client.closed = false)
    (hr : AllParse b w.script) :
    (∀ x rest, ServerReply w.script x rest → ∃ w', recvReply b w = (.ok (toReply b x), w') ∧
      w'.script = rest ∧ w'.client.scratch = w.client.scratch ∧ w'.client.config = w.client.config ∧
      ∀ y, x = .ok y → w'.client.closed = false) ∧
    (∀ x w', recvReply b w = (.ok x, w') → ∃ y, x = toReply b y ∧ ServerReply w.script y w'.script ∧
      ∀ z, y = .ok z → w'.client.closed = false) := by
  have hc' : ¬ w.client.closed = true := by simp [hc]
  rw [recvReply_run, if_neg hc']
  constructor
  · intro x rest h
    generalize hs : w.script = script at h
    cases h with
    | @line s l _ hl =>
      obtain ⟨h1, _, _⟩ := parses_some (hr s (by rw [hs]; simp)) hl
      simp only [h1]
      exact ⟨_, rfl, rfl, rfl, rfl, fun _ _ => hc⟩
    | @bad s _ hl =>
      have h1 := parses_none (hr s (by rw [hs]; simp)) hl
      simp only [h1]
      exact ⟨_, rfl, rfl, rfl, rfl, fun _ h => nomatch h⟩
    | failed e => exact ⟨_, rfl, rfl, rfl, rfl, fun _ h => nomatch h⟩
    | closed => exact ⟨_, rfl, rfl, rfl, rfl, fun _ h => nomatch h⟩
    | late => exact ⟨_, rfl, rfl, rfl, rfl, fun _ h => nomatch h⟩
  · intro x w' h
    cases hs : w.script with
    | nil => rw [hs] at h; simp at h
    | cons a rest =>
      rw [hs] at h
      cases a with
      | elapsed n =>
        cases n with
        | zero =>
          simp at h
          exact ⟨.error .timeout, h.1.symm, by rw [← h.2]; exact .late _, fun _ h => nomatch h⟩
        | succ n => simp at h
      | line s =>
        simp only [] at h
        cases hl : Spec.line s with
        | none =>
          rw [parses_none (hr s (by rw [hs]; simp)) hl] at h
          simp at h
          exact ⟨.error (.read (.parse s)), h.1.symm, by rw [← h.2]; exact .bad _ hl, fun _ h => nomatch h⟩
        | some l =>
          rw [(parses_some (hr s (by rw [hs]; simp)) hl).1] at h
          simp at h
          exact ⟨.ok (l, s), h.1.symm, by rw [← h.2]; exact .line _ hl, fun _ _ => by rw [← h.2]; exact hc⟩
      | readFailed e =>
        simp at h
        exact ⟨.error (.read (.io e)), h.1.symm, by rw [← h.2]; exact .failed _ _, fun _ h => nomatch h⟩
      | eof =>
        simp at h
        exact ⟨.error (.read .streamClosed), h.1.symm, by rw [← h.2]; exact .closed _, fun _ h => nomatch h⟩
      | _ => simp at h

/-- `none` is success. -/
def toResult : Option ConnectError → Except ConnectError Unit
  | none => .ok ()
  | some e => .error e

theorem _root_.Tmi.Spec.ServerReply.represents {b : Build} {script rest : List Answer} {l : Line} {s : Bytes}
    (hr : AllParse b script) (h : ServerReply script (.ok (l, s)) rest) :
    RestOf (parsed b s).asRef l ∧ rest <:+ script := by
  cases h with
  | line _ hl => exact ⟨(parses_some (hr s (by simp)) hl).2.2, List.suffix_cons _ _⟩

theorem awaitWelcome_spec {b : Build} {w : World} (hc : w.client.closed = false)
    (hr : AllParse b w.script) :
    (∀ o rest, Welcomed (parsed b) w.script o rest →
      ∃ w', awaitWelcome b w = (.ok (toResult o), w') ∧ w'.script = rest) ∧
    (∀ r w', awaitWelcome b w = (.ok r, w') →
      ∃ o, r = toResult o ∧ Welcomed (parsed b) w.script o w'.script) := by
  constructor
  · intro o rest h
    unfold awaitWelcome
    cases h with
    | noFirst h =>
      obtain ⟨w', h1, h2, _⟩ := (recvReply_spec hc hr).1 _ _ h
      rw [act_bind_ok h1]
      exact ⟨w', rfl, h2⟩
    | @first r l x e h h' =>
      obtain ⟨w', h1, h2, _⟩ := (recvReply_spec hc hr).1 _ _ h
      obtain ⟨R, _⟩ := h.represents hr
      rw [act_bind_ok h1]
      simp only [toReply]
      rw [(checkCap_spec R _).2 h', lift, act_bind, act_pure]
      exact ⟨w', rfl, h2⟩
    | @noSecond r r' l x e h h' k =>
      obtain ⟨w', h1, h2, _, _, h3⟩ := (recvReply_spec hc hr).1 _ _ h
      obtain ⟨R, hsuf⟩ := h.represents hr
      rw [act_bind_ok h1]
      simp only [toReply]
      rw [(checkCap_spec R _).2 h', lift, act_bind, act_pure]
      simp only []
      obtain ⟨w'', k1, k2, _⟩ := (recvReply_spec (h3 _ rfl) (by rw [h2]; exact hr.suffix hsuf)).1 _ _
        (by rw [h2]; exact k)
      rw [act_bind_ok k1]
      exact ⟨w'', rfl, k2⟩
    | @second r r' l l' x x' o h h' k k' =>
      obtain ⟨w', h1, h2, _, _, h3⟩ := (recvReply_spec hc hr).1 _ _ h
      obtain ⟨R, hsuf⟩ := h.represents hr
      rw [act_bind_ok h1]
      simp only [toReply]
      rw [(checkCap_spec R _).2 h', lift, act_bind, act_pure]
      simp only []
      obtain ⟨w'', k1, k2, _⟩ := (recvReply_spec (h3 _ rfl) (by rw [h2]; exact hr.suffix hsuf)).1 _ _
        (by rw [h2]; exact k)
      obtain ⟨R', _⟩ := k.represents (hr.suffix hsuf)
      rw [act_bind_ok k1]
      simp only [toReply]
      rw [(checkWelcome_spec R' _).2 k', lift, act_bind, act_pure]
      cases o <;> exact ⟨w'', rfl, k2⟩
  · intro r w' h
    unfold awaitWelcome at h
    rw [act_bind] at h
    cases h1 : recvReply b w with
    | mk x w1 =>
      rw [h1] at h
      cases x with
      | error s => simp at h
      | ok x =>
        obtain ⟨y, e1, e2, e3⟩ := (recvReply_spec hc hr).2 _ _ h1
        cases y with
        | error e =>
          simp only [toReply] at e1
          subst e1
          simp [act_pure] at h
          exact ⟨some e, h.1.symm, .noFirst (h.2 ▸ e2)⟩
        | ok y =>
          obtain ⟨l, s⟩ := y
          simp only [toReply] at e1
          subst e1
          obtain ⟨R, hsuf⟩ := e2.represents hr
          simp only [act_bind] at h
          cases h2 : checkCap (parsed b s) with
          | error f => rw [h2] at h; simp [lift, stop] at h
          | ok o =>
            rw [h2] at h
            have f1 := (checkCap_spec R _).1 h2
            cases o with
            | some e =>
              simp [lift, act_pure] at h
              exact ⟨some e, h.1.symm, .first (h.2 ▸ e2) f1⟩
            | none =>
              simp only [lift, act_pure, act_bind] at h
              cases h3 : recvReply b w1 with
              | mk x w3 =>
                rw [h3] at h
                cases x with
                | error s => simp at h
                | ok x =>
                  obtain ⟨y, e1', e2', e3'⟩ := (recvReply_spec (e3 _ rfl) (hr.suffix hsuf)).2 _ _ h3
                  cases y with
                  | error e =>
                    simp only [toReply] at e1'
                    subst e1'
                    simp [act_pure] at h
                    exact ⟨some e, h.1.symm, .noSecond e2 f1 (h.2 ▸ e2')⟩
                  | ok y =>
                    obtain ⟨l', s'⟩ := y
                    simp only [toReply] at e1'
                    subst e1'
                    obtain ⟨R', _⟩ := e2'.represents (hr.suffix hsuf)
                    simp only [act_bind] at h
                    cases h4 : checkWelcome (parsed b s') with
                    | error f => rw [h4] at h; simp [lift, stop] at h
                    | ok o =>
                      rw [h4] at h
                      have f2 := (checkWelcome_spec R' _).1 h4
                      cases o with
                      | some e =>
                        simp [lift, act_pure] at h
                        exact ⟨some e, h.1.symm, .second e2 f1 (h.2 ▸ e2') f2⟩
                      | none =>
                        simp [lift, act_pure] at h
                        exact ⟨none, h.1.symm, .second e2 f1 (h.2 ▸ e2') f2⟩

end Tmi.Proofs
