/-
C119: `recv` waits only when there is no complete line.
-/
import Verif.Proofs.Prompt

namespace Tmi.Props
open Tmi.Model Tmi.Spec Tmi.Proofs

/-- C119: if `recv` has to wait, then because the connection had nothing more to give at that moment, and every
complete line that had arrived by then had been returned (unless a read had failed before). -/
theorem C119_waits {b : Build} {net : List Net} {results : List (Except Stop (Except RecvError MsgOwned))}
    {r r' : Reader} {rest rest' : List Net} (h : Receiving b net results r rest)
    (hp : recvPoll b r rest = ⟨.pending, r', rest'⟩) :
    ∃ seen, net = seen ++ rest' ∧ ((∃ s, seen = s ++ [.pending]) ∨ rest' = []) ∧
      ((∀ e, .fail e ∉ seen) → results = (delivered (arrived seen)).map (expected b)) := by
  obtain ⟨seen, i⟩ := progress h
  rw [recvPoll_eq] at hp
  by_cases hdone : r.done = true
  · have : r.poll rest = ⟨.ready none, r, rest⟩ := by unfold Reader.poll; rw [if_pos hdone]
    rw [this] at hp
    simp at hp
  have hl := looks_once r rest i.aside (by simpa using hdone)
  generalize r.poll rest = q at hl hp
  cases hl with
  | line => simp at hp
  | eof => simp at hp
  | fail => simp at hp
  | @wait r'' net'' s g1 g2 g3 g4 g5 g6 g7 =>
    simp only [Polled.mk.injEq, true_and] at hp
    obtain ⟨rfl, rfl⟩ := hp
    refine ⟨seen ++ s, by rw [i.split, g1, List.append_assoc], ?_, ?_⟩
    · rcases g3 with ⟨t, rfl⟩ | g3
      · exact .inl ⟨seen ++ t, by simp⟩
      · exact .inr g3
    · intro hnf
      rcases i.state with f | ⟨e, he⟩ | ⟨h1, _⟩
      · obtain ⟨p, k1, k2, k3⟩ := f.given
        rw [g4] at g5
        rw [arrived_fine _ f.whole, k1, List.append_assoc, k2, (delivered_rest g5).1, List.append_nil]
        exact k3
      · exact absurd (List.mem_append_left _ he) (hnf e)
      · cases s with
        | nil =>
          rcases g3 with ⟨t, ht⟩ | g3
          · simp at ht
          · rw [g1, g3] at h1; simp at h1
        | cons x s =>
          rw [g1] at h1
          simp only [List.cons_append, List.head?_cons, Option.some.injEq] at h1
          exact absurd h1 (g2 x (by simp)).1

/-- C119: a line that has been read from the connection but not returned is returned by the next poll of `recv`, at
once and without looking at the connection. -/
theorem C119_buffered {b : Build} {net : List Net} {results : List (Except Stop (Except RecvError MsgOwned))}
    {r : Reader} {rest : List Net} (h : Receiving b net results r rest) (seen : List Net) (hs : net = seen ++ rest)
    (hf : ∀ e, .fail e ∉ seen) (x : Except IoError Bytes)
    (hx : (delivered (arrived seen))[results.length]? = some x) :
    ∃ r', recvPoll b r rest = ⟨.ready (expected b x), r', rest⟩ := by
  obtain ⟨seen', i⟩ := progress h
  have : seen' = seen := List.append_cancel_right (i.split.symm.trans hs)
  subst this
  rcases i.state with f | ⟨e, he⟩ | ⟨_, _, _, h4⟩
  · exact flowing_next f i.aside rest x hx
  · exact absurd he (hf e)
  · rw [List.getElem?_eq_none h4] at hx
    exact absurd hx (by simp)

theorem receivedLines_grow (a b : Bytes) : (receivedLines a).length ≤ (receivedLines (a ++ b)).length := by
  rw [receivedLines_length, receivedLines_length, List.count_append]; omega

/-- C119: once the bytes of another line have all arrived, the next poll of `recv` returns: it does not wait for
more. -/
theorem C119_arrives {b : Build} {net : List Net} {results : List (Except Stop (Except RecvError MsgOwned))}
    {r : Reader} (seen more rest : List Net) (h : Receiving b net results r (more ++ rest))
    (hs : net = seen ++ (more ++ rest)) (hf : ∀ e, .fail e ∉ seen) (hm : ∀ x ∈ more, ∃ bs, x = .data bs)
    (hx : results.length < (delivered (arrived (seen ++ more))).length) :
    ∃ x r' rest', recvPoll b r (more ++ rest) = ⟨.ready x, r', rest'⟩ := by
  cases hp : recvPoll b r (more ++ rest) with
  | mk out r' rest' =>
  cases out with
  | ready x => exact ⟨x, r', rest', rfl⟩
  | pending =>
    exfalso
    obtain ⟨seen', i⟩ := progress h
    have : seen' = seen := List.append_cancel_right (i.split.symm.trans hs)
    subst this
    have hfine : ∀ l : List Net, (∀ x ∈ l, ∃ bs, x = .data bs) → Unbroken l := by
      intro l hl x hx
      obtain ⟨bs, rfl⟩ := hl x hx
      simp
    rw [recvPoll_eq] at hp
    by_cases hdone : r.done = true
    · have : r.poll (more ++ rest) = ⟨.ready none, r, more ++ rest⟩ := by unfold Reader.poll; rw [if_pos hdone]
      rw [this] at hp
      simp at hp
    have hl := looks_once r (more ++ rest) i.aside (by simpa using hdone)
    generalize r.poll (more ++ rest) = q at hl hp
    cases hl with
    | line => simp at hp
    | eof => simp at hp
    | fail => simp at hp
    | @wait r'' net'' s g1 g2 g3 g4 g5 g6 g7 =>
      -- what it looked at goes beyond `more`
      have hlong : ∃ t, s = more ++ t := by
        rcases List.append_eq_append_iff.1 g1 with ⟨t, ht, _⟩ | ⟨t, ht, hn⟩
        · exact ⟨t, ht⟩
        · rcases g3 with ⟨u, rfl⟩ | g3
          · have : Net.pending ∈ more := by rw [ht]; simp
            obtain ⟨bs, hbs⟩ := hm _ this
            cases hbs
          · rw [g3] at hn
            have : t = [] := by
              have := congrArg List.length hn
              simp at this
              exact List.length_eq_zero_iff.1 (by omega)
            exact ⟨[], by rw [ht, this]; simp⟩
      obtain ⟨t, rfl⟩ := hlong
      rcases i.state with f | ⟨e, he⟩ | ⟨h1, _, _, h4⟩
      · obtain ⟨p, k1, k2, k3⟩ := f.given
        rw [g4, arrived_fine _ (hfine more hm)] at g5
        have : LF ∉ r.bytes ++ r.avail ++ arrived more := fun h => g5 (by
          rw [← List.append_assoc]; exact List.mem_append_left _ h)
        rw [arrived_fine _ f.whole, k1, List.append_assoc, k2, (delivered_rest this).1, List.append_nil, k3,
          List.length_map] at hx
        omega
      · exact absurd he (hf e)
      · cases hmore : more with
        | nil =>
          rw [hmore, List.append_nil] at hx
          omega
        | cons y ys =>
          obtain ⟨bs, hbs⟩ := hm y (by rw [hmore]; simp)
          rw [hmore, hbs] at h1
          simp at h1

/-! Non-vacuity: two lines in one piece after a wait. -/

def promptNet : List Net := [.pending, .data (b!"PING :a\r\nPI"), .data (b!"NG :b\r\nPO"), .pending, .data (b!"NG\r\n")]

theorem prompt_first (b : Build) : Receiving b promptNet [] .new
    [.data (b!"PING :a\r\nPI"), .data (b!"NG :b\r\nPO"), .pending, .data (b!"NG\r\n")] :=
  .waits .start rfl

theorem poll_of {r r' : Reader} {net net' : List Net} {i : Option (Except IoError Bytes)}
    (h : (r.poll net).out = .ready i ∧ (r.poll net).reader = r' ∧ (r.poll net).net = net') (b : Build) :
    recvPoll b r net = ⟨.ready (recvItem b i), r', net'⟩ := by
  obtain ⟨h1, h2, h3⟩ := h
  rw [recvPoll_eq]
  generalize r.poll net = p at h1 h2 h3
  obtain ⟨out, a, c⟩ := p
  simp only at h1 h2 h3
  subst h1 h2 h3
  rfl

theorem prompt_second (b : Build) : Receiving b promptNet [expected b (.ok (b!"PING :a"))] ⟨b!"PI", [], false⟩
    [.data (b!"NG :b\r\nPO"), .pending, .data (b!"NG\r\n")] := by
  have := poll_of (r := .new) (net := [.data (b!"PING :a\r\nPI"), .data (b!"NG :b\r\nPO"), .pending,
    .data (b!"NG\r\n")]) (i := some (.ok (b!"PING :a"))) (r' := ⟨b!"PI", [], false⟩)
    (net' := [.data (b!"NG :b\r\nPO"), .pending, .data (b!"NG\r\n")]) (by decide +kernel) b
  rw [recvItem_some] at this
  exact .returns (prompt_first b) this

theorem delivered_length (w : Bytes) : (delivered w).length = (receivedLines w).length := by simp [delivered]

/-- The second line is complete with the third piece: the next poll returns. -/
example (b : Build) := C119_arrives [.pending, .data (b!"PING :a\r\nPI")] [.data (b!"NG :b\r\nPO")]
  [.pending, .data (b!"NG\r\n")] (prompt_second b) rfl (by simp) (by simp) (by
    rw [delivered_length, List.length_singleton]; decide +kernel)

/-- Before anything has arrived, `recv` waits. -/
example (b : Build) := C119_waits (b := b) (net := promptNet) .start rfl

/-- Two lines in one piece: the second is returned without another look. -/
def promptPair : List Net := [.data (b!"PING :a\r\nPING :b\r\nPO"), .pending]
theorem prompt_pair (b : Build) : Receiving b promptPair [expected b (.ok (b!"PING :a"))]
    ⟨b!"PING :b\r\nPO", [], false⟩ [.pending] := by
  have := poll_of (r := .new) (net := promptPair) (i := some (.ok (b!"PING :a")))
    (r' := ⟨b!"PING :b\r\nPO", [], false⟩) (net' := [.pending]) (by decide +kernel) b
  rw [recvItem_some] at this
  exact .returns .start this
example (b : Build) : ∃ r', recvPoll b ⟨b!"PING :b\r\nPO", [], false⟩ [.pending] =
    ⟨.ready (expected b (.ok (b!"PING :b"))), r', [.pending]⟩ := by
  refine C119_buffered (prompt_pair b) [.data (b!"PING :a\r\nPING :b\r\nPO")] rfl (by simp) (.ok (b!"PING :b")) ?_
  have e : arrived [.data (b!"PING :a\r\nPING :b\r\nPO")] =
      b!"PING :a" ++ [CR, LF] ++ (b!"PING :b" ++ [CR, LF] ++ b!"PO") := by decide
  rw [e, (C60_utf8 _ _ (by decide)).1 (.of_ascii (by decide)), (C60_utf8 _ _ (by decide)).1 (.of_ascii (by decide))]
  rfl

end Tmi.Props
