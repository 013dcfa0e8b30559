/-
Property C111: nobody who uses a `SameMessageBypass` repeats themselves.
-/
import Verif.Spec.Bypass
import Verif.Props.Relay

namespace Tmi.Props
open Tmi.Model Tmi.Spec Tmi.Proofs

/-! ## C111: with a bypass, no message is the one before it -/

theorem bypassed_get : ∀ (ms : List (Bytes × Bytes)) (a : Bool) (i : Nat),
    ((bypassed ⟨a⟩ ms).flatMap asked)[i]? =
      (ms[i]?).map fun m => .say m.1 (m.2 ++ if (i % 2 = 0) = (a = false) then [] else invisible) none
  | [], a, i => by simp [bypassed]
  | (ch, t) :: ms, a, i => by
    rw [bypassed, List.flatMap_cons]
    cases i with
    | zero => cases a <;> rfl
    | succ i =>
      rw [show asked (.privmsg ch (t ++ (SameMessageBypass.get ⟨a⟩).1) none none) =
        [.say ch (t ++ (SameMessageBypass.get ⟨a⟩).1) none] from rfl, List.singleton_append, List.getElem?_cons_succ,
        List.getElem?_cons_succ, show (SameMessageBypass.get ⟨a⟩).2 = ⟨!a⟩ from rfl, bypassed_get ms (!a) i]
      have e : ((i % 2 = 0) = ((!a) = false)) = ((((i + 1) % 2 = 0)) = (a = false)) := by
        rcases Nat.mod_two_eq_zero_or_one i with h | h
        · have : (i + 1) % 2 = 1 := by omega
          cases a <;> simp [h, this]
        · have : (i + 1) % 2 = 0 := by omega
          cases a <;> simp [h, this]
      simp only [e]

theorem bypassed_plain : ∀ (ms : List (Bytes × Bytes)) (s : SameMessageBypass), (∀ m ∈ ms, PlainSaying m) →
    ∀ c ∈ bypassed s ms, PlainCmd c
  | [], _, _, c, hc => by simp [bypassed] at hc
  | (ch, t) :: ms, s, h, c, hc => by
    rw [bypassed, List.mem_cons] at hc
    rcases hc with rfl | hc
    · obtain ⟨h1, h2, h3, h4⟩ := h (ch, t) (by simp)
      refine ⟨h1, h2, h3, ?_, by simp⟩
      rw [List.mem_append]
      rintro (h5 | h5)
      · exact h4 h5
      · cases s with
        | mk a => cases a <;> exact absurd h5 (by decide)
    · exact bypassed_plain ms _ (fun m hm => h m (by simp [hm])) c hc

theorem each_plain : ∀ (ms : List (Bytes × Bytes)) (s : Bytes → SameMessageBypass), (∀ m ∈ ms, PlainSaying m) →
    ∀ c ∈ bypassedEach s ms, PlainCmd c
  | [], _, _, c, hc => by simp [bypassedEach] at hc
  | (ch, t) :: ms, s, h, c, hc => by
    rw [bypassedEach, List.mem_cons] at hc
    rcases hc with rfl | hc
    · obtain ⟨h1, h2, h3, h4⟩ := h (ch, t) (by simp)
      refine ⟨h1, h2, h3, ?_, by simp⟩
      rw [List.mem_append]
      rintro (h5 | h5)
      · exact h4 h5
      · cases hs : s ch with
        | mk a => rw [hs] at h5; cases a <;> exact absurd h5 (by decide)
    · exact each_plain ms _ (fun m hm => h m (by simp [hm])) c hc

/-- C111: with one bypass, the server understands each message with nothing or the invisible text after it, by turns. -/
theorem C111_understood (w w' : World) (ms : List (Bytes × Bytes)) (h0 : w.client.scratch = [])
    (h : Sent w (bypassed .default ms) w') (hp : ∀ m ∈ ms, PlainSaying m) (i : Nat) :
    ((receivedLines (wire w w')).flatMap requests)[i]? =
      (ms[i]?).map fun m => .say m.1 (if i % 2 = 0 then m.2 else m.2 ++ invisible) none := by
  rw [C100_understood w w' _ h0 h (bypassed_plain ms _ hp), show SameMessageBypass.default = ⟨false⟩ from rfl,
    bypassed_get]
  congr 1
  funext m
  by_cases hi : i % 2 = 0 <;> simp [hi]

/-- C111, exactly: two messages are the same for the server iff they are in the same channel and their texts are the same
and an odd number of messages was sent between them, in whatever channels, or else one text is the other with the
invisible text. -/
theorem C111_exactly (w w' : World) (ms : List (Bytes × Bytes)) (h0 : w.client.scratch = [])
    (h : Sent w (bypassed .default ms) w') (hp : ∀ m ∈ ms, PlainSaying m) (i j : Nat) (hij : i < j)
    (c c' t t' : Bytes) (hi : ms[i]? = some (c, t)) (hj : ms[j]? = some (c', t')) :
    ((receivedLines (wire w w')).flatMap requests)[i]? = ((receivedLines (wire w w')).flatMap requests)[j]? ↔
      c = c' ∧ ((j - i) % 2 = 0 ∧ t = t' ∨ (j - i) % 2 = 1 ∧ i % 2 = 0 ∧ t = t' ++ invisible ∨
        (j - i) % 2 = 1 ∧ i % 2 = 1 ∧ t' = t ++ invisible) := by
  rw [C111_understood w w' ms h0 h hp, C111_understood w w' ms h0 h hp, hi, hj]
  simp only [Option.map_some, Option.some.injEq, Request.say.injEq, and_true]
  refine and_congr_right fun _ => ?_
  rcases Nat.mod_two_eq_zero_or_one i with h1 | h1 <;> rcases Nat.mod_two_eq_zero_or_one j with h2 | h2
  · have : (j - i) % 2 = 0 := by omega
    simp [h1, h2, this]
  · have : (j - i) % 2 = 1 := by omega
    simp [h1, h2, this]
  · have : (j - i) % 2 = 1 := by omega
    simp [h1, h2, this, eq_comm]
  · have : (j - i) % 2 = 0 := by omega
    simp [h1, h2, this]

/-- C111: as long as every message is in the same channel, or an even number of messages is sent elsewhere between two in
a channel, no message is the one before it in that channel, whatever the texts (that do not themselves end in the
invisible text). -/
theorem C111_one_channel_partial (w w' : World) (ms : List (Bytes × Bytes)) (h0 : w.client.scratch = [])
    (h : Sent w (bypassed .default ms) w') (hp : ∀ m ∈ ms, PlainSaying m) (ht : ∀ m ∈ ms, ¬ invisible <:+ m.2)
    (he : ∀ i j c t t', i < j → ms[i]? = some (c, t) → ms[j]? = some (c, t') →
      (∀ k t'', i < k → k < j → ms[k]? ≠ some (c, t'')) → (j - i) % 2 = 1) :
    ¬ Repeated ((receivedLines (wire w w')).flatMap requests) := by
  rintro ⟨i, j, ch, t, r, r', hij, hi, hj, hk⟩
  have hu := C111_understood w w' ms h0 h hp
  have src : ∀ {i : Nat} {t : Bytes} {r : Option Bytes},
      ((receivedLines (wire w w')).flatMap requests)[i]? = some (.say ch t r) → ∃ t', ms[i]? = some (ch, t') ∧
      r = none := by
    intro i t r hi
    rw [hu i] at hi
    cases hm : ms[i]? with
    | none => rw [hm] at hi; cases hi
    | some m =>
      rw [hm] at hi
      simp only [Option.map_some, Option.some.injEq, Request.say.injEq] at hi
      exact ⟨m.2, by rw [← hi.1], hi.2.2.symm⟩
  obtain ⟨t1, e1, rfl⟩ := src hi
  obtain ⟨t2, e2, rfl⟩ := src hj
  have hodd := he i j ch t1 t2 hij e1 e2 fun k t'' h1 h2 hm => hk k _ none h1 h2 (by rw [hu k, hm]; rfl)
  have := (C111_exactly w w' ms h0 h hp i j hij ch ch t1 t2 e1 e2).1 (hi.trans hj.symm)
  rcases this.2 with ⟨h1, _⟩ | ⟨_, _, h2⟩ | ⟨_, _, h2⟩
  · omega
  · exact ht _ (List.mem_of_getElem? e1) ⟨t2, h2.symm⟩
  · exact ht _ (List.mem_of_getElem? e2) ⟨t1, h2.symm⟩

/-- With a bypass for every channel, the first message in a channel has what the bypass of the channel gives. -/
theorem each_first : ∀ (ms : List (Bytes × Bytes)) (s : Bytes → SameMessageBypass) (j : Nat) (ch t : Bytes)
    (r : Option Bytes), ((bypassedEach s ms).flatMap asked)[j]? = some (.say ch t r) →
    (∀ k t' r', k < j → ((bypassedEach s ms).flatMap asked)[k]? ≠ some (.say ch t' r')) →
    ∃ t0, (ch, t0) ∈ ms ∧ t = t0 ++ (s ch).get.1
  | [], s, j, ch, t, r, h, _ => by simp [bypassedEach] at h
  | (c, t1) :: ms, s, j, ch, t, r, h, hk => by
    have e : (bypassedEach s ((c, t1) :: ms)).flatMap asked = .say c (t1 ++ (s c).get.1) none ::
      (bypassedEach (fun x => if x = c then (s c).get.2 else s x) ms).flatMap asked := rfl
    rw [e] at h hk
    cases j with
    | zero =>
      simp only [List.getElem?_cons_zero, Option.some.injEq, Request.say.injEq] at h
      obtain ⟨rfl, h2, _⟩ := h
      exact ⟨t1, by simp, h2.symm⟩
    | succ j =>
      have hne : ch ≠ c := fun hc => hk 0 (t1 ++ (s c).get.1) none (Nat.succ_pos _) (by rw [hc]; rfl)
      obtain ⟨t0, h1, h2⟩ := each_first ms _ j ch t r h fun k t' r' h1 => hk (k + 1) t' r' (by omega)
      rw [if_neg hne] at h2
      exact ⟨t0, by simp [h1], h2⟩

theorem each_not_repeated : ∀ (ms : List (Bytes × Bytes)) (s : Bytes → SameMessageBypass),
    (∀ m ∈ ms, ¬ invisible <:+ m.2) → ¬ Repeated ((bypassedEach s ms).flatMap asked)
  | [], s, _ => by
    rintro ⟨i, j, ch, t, r, r', _, hi, _⟩
    simp [bypassedEach] at hi
  | (c, t1) :: ms, s, ht => by
    have e : (bypassedEach s ((c, t1) :: ms)).flatMap asked = .say c (t1 ++ (s c).get.1) none ::
      (bypassedEach (fun x => if x = c then (s c).get.2 else s x) ms).flatMap asked := rfl
    rw [e]
    rintro ⟨i, j, ch, t, r, r', hij, hi, hj, hk⟩
    cases j with
    | zero => omega
    | succ j =>
      cases i with
      | zero =>
        simp only [List.getElem?_cons_zero, Option.some.injEq, Request.say.injEq] at hi
        obtain ⟨rfl, h2, _⟩ := hi
        obtain ⟨t0, h3, h4⟩ := each_first ms _ j c t r' hj fun k t' r' h1 =>
          hk (k + 1) t' r' (Nat.succ_pos _) (by omega)
        rw [if_pos rfl, ← h2] at h4
        cases hs : s c with
        | mk a =>
          rw [hs] at h4
          cases a with
          | false =>
            have : t1 = t0 ++ invisible := by
              simpa [SameMessageBypass.get, invisible] using h4
            exact ht (c, t1) (by simp) ⟨t0, this.symm⟩
          | true =>
            have : t1 ++ invisible = t0 := by
              simpa [SameMessageBypass.get, invisible] using h4
            exact ht (c, t0) (by simp [h3]) ⟨t1, this⟩
      | succ i =>
        exact each_not_repeated ms _ (fun m hm => ht m (by simp [hm]))
          ⟨i, j, ch, t, r, r', by omega, hi, hj, fun k t' r'' h1 h2 => hk (k + 1) t' r'' (by omega) (by omega)⟩

/-- C111: with a bypass for every channel, no message is the one before it in that channel, whatever is said where. -/
theorem C111_each (w w' : World) (ms : List (Bytes × Bytes)) (h0 : w.client.scratch = [])
    (h : Sent w (bypassedEach (fun _ => .default) ms) w') (hp : ∀ m ∈ ms, PlainSaying m)
    (ht : ∀ m ∈ ms, ¬ invisible <:+ m.2) :
    ¬ Repeated ((receivedLines (wire w w')).flatMap requests) := by
  rw [C100_understood w w' _ h0 h (each_plain ms _ hp)]
  exact each_not_repeated ms _ ht

/-- C111, where it fails: with one bypass for two channels by turns, the second message in a channel is the first once
more; and so it is with a text with the invisible text in it before the same text without. -/
theorem C111_repeats (w w' : World) (h0 : w.client.scratch = []) :
    (Sent w (bypassed .default [(b!"#a", b!"hi"), (b!"#b", b!"hi"), (b!"#a", b!"hi")]) w' →
      Repeated ((receivedLines (wire w w')).flatMap requests)) ∧
    (Sent w (bypassed .default [(b!"#a", b!"hi ⠀"), (b!"#a", b!"hi")]) w' →
      Repeated ((receivedLines (wire w w')).flatMap requests)) := by
  constructor
  · intro h
    have hu := C111_understood w w' _ h0 h (by unfold PlainSaying; decide)
    refine ⟨0, 2, b!"#a", b!"hi", none, none, by decide, hu 0, hu 2, fun k t' r'' h1 h2 => ?_⟩
    have : k = 1 := by omega
    subst this
    rw [hu 1]
    intro e
    have := (Request.say.inj (Option.some.inj e)).1
    revert this
    decide
  · intro h
    have hu := C111_understood w w' _ h0 h (by unfold PlainSaying; decide)
    exact ⟨0, 1, b!"#a", b!"hi ⠀", none, none, by decide, hu 0, hu 1, fun k _ _ h1 h2 => by omega⟩

/-- Three messages in two channels, all of them sent, the bytes taken in pieces. -/
def sampleSayings : List (Bytes × Bytes) := [(b!"#a", b!"hi"), (b!"#b", b!"hi"), (b!"#a", b!"hi")]

theorem sampleSayings_sent : ∃ w', Sent (sampleWorld []) (bypassed .default sampleSayings) w' :=
  ⟨_, .more [.accept 1000] _ (by decide +kernel) <| .more [.accept 2, .accept 99] _ (by decide +kernel) <|
    .more [.accept 1000] _ (by decide +kernel) (.none _)⟩

theorem sampleSayings_plain : ∀ m ∈ sampleSayings, PlainSaying m := by unfold PlainSaying; decide

theorem sampleSayings_visible : ∀ m ∈ sampleSayings, ¬ invisible <:+ m.2 := by decide

/-- C111 is false: plain messages that are sent, none of which ends in the invisible text, and one is repeated. -/
theorem C111_negation : ∃ w w' ms, w.client.scratch = [] ∧ Sent w (bypassed .default ms) w' ∧
    (∀ m ∈ ms, PlainSaying m) ∧ (∀ m ∈ ms, ¬ invisible <:+ m.2) ∧
    Repeated ((receivedLines (wire w w')).flatMap requests) := by
  obtain ⟨w', h⟩ := sampleSayings_sent
  exact ⟨_, w', _, rfl, h, sampleSayings_plain, sampleSayings_visible, (C111_repeats _ w' rfl).1 h⟩

example (w' : World) (h : Sent (sampleWorld []) (bypassed .default sampleSayings) w') :=
  C111_understood _ w' _ rfl h sampleSayings_plain

example (w' : World) (h : Sent (sampleWorld []) (bypassed .default sampleSayings) w') :=
  C111_exactly _ w' _ rfl h sampleSayings_plain 0 2 (by decide) _ _ _ _ rfl rfl

/-- The same message three times in one channel. -/
def sampleAgain : List (Bytes × Bytes) := [(b!"#a", b!"hi"), (b!"#a", b!"hi"), (b!"#a", b!"hi")]

example : ∃ w', Sent (sampleWorld []) (bypassed .default sampleAgain) w' ∧
    ¬ Repeated ((receivedLines (wire (sampleWorld []) w')).flatMap requests) := by
  have h : ∃ w', Sent (sampleWorld []) (bypassed .default sampleAgain) w' :=
    ⟨_, .more [.accept 1000] _ (by decide +kernel) <| .more [.accept 2, .accept 99] _ (by decide +kernel) <|
      .more [.accept 1000] _ (by decide +kernel) (.none _)⟩
  obtain ⟨w', h⟩ := h
  refine ⟨w', h, C111_one_channel_partial _ w' _ rfl h (by unfold PlainSaying; decide) (by decide) ?_⟩
  intro i j c t t' hij hi hj hk
  obtain ⟨h3, -⟩ := List.getElem?_eq_some_iff.1 hj
  have h3 : j < 3 := h3
  match i, j, hij, h3 with
  | 0, 1, _, _ => rfl
  | 1, 2, _, _ => rfl
  | i + 2, _, _, _ => omega
  | 0, 2, _, _ =>
    have : c = b!"#a" := (Prod.mk.inj (Option.some.inj hi)).1.symm
    exact absurd (by rw [this]; rfl) (hk 1 (b!"hi") (by decide) (by decide))

example : ∃ w', Sent (sampleWorld []) (bypassedEach (fun _ => .default) sampleSayings) w' ∧
    ¬ Repeated ((receivedLines (wire (sampleWorld []) w')).flatMap requests) := by
  have h : ∃ w', Sent (sampleWorld []) (bypassedEach (fun _ => .default) sampleSayings) w' :=
    ⟨_, .more [.accept 1000] _ (by decide +kernel) <| .more [.accept 2, .accept 99] _ (by decide +kernel) <|
      .more [.accept 1000] _ (by decide +kernel) (.none _)⟩
  obtain ⟨w', h⟩ := h
  exact ⟨w', h, C111_each _ w' _ rfl h sampleSayings_plain sampleSayings_visible⟩

end Tmi.Props
