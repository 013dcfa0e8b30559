/-
Property C54: commands that fail or are cancelled, and the commands after them.
-/
import Verif.Props.Send

namespace Tmi.Props
open Tmi.Model Tmi.Spec Tmi.Proofs

/-- A call returns `Ok` exactly when the whole command has been written. -/
theorem send_full (c : Cmd) (w : World) (h0 : w.client.scratch = []) (hne : commandBytes c ≠ [])
    (h : wire w (c.send w).2 = commandBytes c) : (c.send w).1 = .ok (.ok ()) := by
  by_cases hraw : ∃ s, c = .raw s
  · obtain ⟨s, rfl⟩ := hraw
    by_cases hs : endsWith [CR, LF] s = true
    · exact (sendRaw_effect hs w).1.full h
    · have e : Cmd.send (.raw s) w = _ := sendRaw_invalid hs w
      rw [e, wire_nothing rfl] at h
      exact absurd h.symm hne
  · refine (send_effect c (fun s h => hraw ⟨s, h⟩) w).1.full ?_
    rw [h0]; exact h

theorem returnedOk_iff {r : Except Stop (Except SendError Unit)} : returnedOk r = true ↔ r = .ok (.ok ()) := by
  unfold returnedOk
  split
  · simp
  · rename_i h
    constructor
    · simp
    · intro e; exact absurd e (h ())

/-- The bytes of a valid command are its line with the terminator. -/
theorem bytes_line (c : Cmd) : commandBytes c = commandLine c ++ [CR, LF] ∨
    ∃ s, c = .raw s ∧ ¬ endsWith [CR, LF] s = true := by
  cases c with
  | raw s =>
    by_cases hs : endsWith [CR, LF] s = true
    · left
      obtain ⟨t, rfl⟩ := (endsWith_iff _ _).1 hs
      simp [commandBytes, commandLine]
    · exact .inr ⟨s, rfl, hs⟩
  | _ => exact .inl rfl

theorem ok_bytes {c : Cmd} {w : World} (h : (c.send w).1 = .ok (.ok ())) :
    commandBytes c = commandLine c ++ [CR, LF] := by
  rcases bytes_line c with h' | ⟨s, rfl, hs⟩
  · exact h'
  · have e : Cmd.send (.raw s) w = _ := sendRaw_invalid hs w
    rw [e] at h
    simp at h

/-- What a call that is cut off has written has no LF. -/
theorem cut_line {c : Cmd} {w : World} (h0 : w.client.scratch = []) (h : (c.send w).1 ≠ .ok (.ok ()))
    (hl : LF ∉ commandLine c) : LF ∉ wire w (c.send w).2 := by
  rcases bytes_line c with h' | ⟨s, rfl, hs⟩
  · have hp := (C34_one_call c w h0).1
    have hne : wire w (c.send w).2 ≠ commandBytes c := fun e => h (send_full c w h0 (by rw [h']; simp) e)
    rw [h'] at hp hne
    have e : commandLine c ++ [CR, LF] = (commandLine c ++ [CR]) ++ [LF] := by simp
    rw [e] at hp hne
    have : wire w (c.send w).2 <+: commandLine c ++ [CR] := by
      rcases List.prefix_concat_iff.1 hp with hp | hp
      · exact absurd hp hne
      · exact hp
    intro hm
    have := this.subset hm
    simp at this
    rcases this with h | h
    · exact hl h
    · exact absurd h (by decide)
  · have e : Cmd.send (.raw s) w = _ := sendRaw_invalid hs w
    rw [e, wire_nothing rfl]
    simp

/-! ## C54 -/

/-- C54: whatever happens to the calls, the bytes on the wire are those of the calls, one after the other.  A call that
returned `Ok` contributes its whole command; one that did not contributes less than that, possibly nothing. -/
theorem C54_pieces (w w' : World) (cs : List (Cmd × Bytes × Bool)) (h0 : w.client.scratch = [])
    (h : Tried w cs w') :
    wire w w' = (cs.map fun x => x.2.1).flatten ∧
    ∀ x ∈ cs, x.2.1 <+: commandBytes x.1 ∧ (x.2.2 = true → x.2.1 = commandBytes x.1) ∧
      (x.2.2 = false → x.2.1.length < (commandBytes x.1).length ∨ commandBytes x.1 = []) := by
  have key : ∀ (w w' : World) (cs : List (Cmd × Bytes × Bool)), Tried w cs w' → w.client.scratch = [] →
      (∃ ev, w'.log = w.log ++ ev ∧ written ev = (cs.map fun x => x.2.1).flatten) ∧
      ∀ x ∈ cs, x.2.1 <+: commandBytes x.1 ∧ (x.2.2 = true → x.2.1 = commandBytes x.1) ∧
        (x.2.2 = false → x.2.1.length < (commandBytes x.1).length ∨ commandBytes x.1 = []) := by
    intro w w' cs h
    induction h with
    | none w => intro _; exact ⟨⟨[], by simp, rfl⟩, by simp⟩
    | @more w w' cs answers c h ih =>
      intro h0
      obtain ⟨h1, h2, ⟨ev, h3, _⟩, h4, _⟩ := C34_one_call c { w with script := answers } h0
      obtain ⟨⟨ev', i1, i2⟩, i3⟩ := ih (by rw [h4]; exact h0)
      have e : ∀ x, wire { w with script := answers } x = wire w x := fun _ => rfl
      rw [e] at h1 h2
      refine ⟨⟨ev ++ ev', by rw [i1, h3]; simp, ?_⟩, fun x hx => ?_⟩
      · rw [written_append, i2, List.map_cons, List.flatten_cons, ← (wire_of h3 : wire w _ = _)]
      · rcases List.mem_cons.1 hx with rfl | hx
        · refine ⟨h1, fun hok => h2 (returnedOk_iff.1 hok), fun hno => ?_⟩
          by_cases hne : commandBytes c = []
          · exact .inr hne
          · left
            refine Nat.lt_of_le_of_ne h1.length_le fun hlen => ?_
            have hfull := h1.eq_of_length hlen
            have := send_full c { w with script := answers } h0 hne hfull
            have := returnedOk_iff.2 this
            simp only [] at hno
            rw [this] at hno
            exact absurd hno (by decide)
        · exact i3 x hx
  obtain ⟨⟨ev, k1, k2⟩, k3⟩ := key w w' cs h h0
  exact ⟨by rw [wire_of k1, k2], k3⟩

example := C54_pieces (sampleWorld []) _ [(.ping (b!"x"), b!"PING", false), (.ping (b!"y"), b!"PING :y\r\n", true)] rfl
  (.more [.accept 4, .writeFailed ⟨.other 1, 2⟩] _ (.more [.accept 100] _ (.none _)))

/-- C54, the part that holds: if the calls that did not return `Ok` put nothing on the wire, the receiver sees the
lines of the others, in order (for commands without LF). -/
theorem C54_unaffected_partial (w w' : World) (cs : List (Cmd × Bytes × Bool)) (h0 : w.client.scratch = [])
    (h : Tried w cs w') (hq : ∀ x ∈ cs, x.2.2 = false → x.2.1 = []) (hl : ∀ x ∈ cs, LF ∉ commandLine x.1) :
    receivedLines (wire w w') = (cs.filter fun x => x.2.2).map fun x => commandLine x.1 := by
  have hb : (cs.map fun x => x.2.1).flatten
      = ((cs.filter fun x => x.2.2).map fun x => commandLine x.1).flatMap fun l => l ++ [CR, LF] := by
    have h' := (C54_pieces w w' cs h0 h).2
    have hok : ∀ x ∈ cs, x.2.2 = true → commandBytes x.1 = commandLine x.1 ++ [CR, LF] := by
      clear hq hl h' h0
      induction h with
      | none w => simp
      | @more w w' cs answers c h ih =>
        intro x hx
        rcases List.mem_cons.1 hx with rfl | hx
        · intro hx; exact ok_bytes (returnedOk_iff.1 hx)
        · exact ih x hx
    clear h hl
    induction cs with
    | nil => rfl
    | cons x cs ih =>
      have ih := ih (fun y hy => hq y (List.mem_cons_of_mem _ hy)) (fun y hy => h' y (List.mem_cons_of_mem _ hy))
        (fun y hy => hok y (List.mem_cons_of_mem _ hy))
      have hx := h' x List.mem_cons_self
      rw [List.map_cons, List.flatten_cons, ih]
      cases hxb : x.2.2 with
      | true =>
        rw [List.filter_cons_of_pos (by simpa using hxb), List.map_cons, List.flatMap_cons, hx.2.1 hxb,
          hok x List.mem_cons_self hxb]
      | false =>
        rw [List.filter_cons_of_neg (by simp [hxb]), hq x List.mem_cons_self hxb, List.nil_append]
  rw [(C54_pieces w w' cs h0 h).1, hb, receivedLines_join]
  intro l hl'
  obtain ⟨x, hx, rfl⟩ := List.mem_map.1 hl'
  exact hl x (List.mem_filter.1 hx).1

/-- C54: exactly what happens to the command after one that was cut off: the receiver sees one line, the beginning of
the first command with the second behind it. -/
theorem C54_glued (w w₂ : World) (c₁ c₂ : Cmd) (p q : Bytes) (h0 : w.client.scratch = [])
    (h : Tried w [(c₁, p, false), (c₂, q, true)] w₂) (h1 : LF ∉ commandLine c₁) (h2 : LF ∉ commandLine c₂) :
    receivedLines (wire w w₂) = [p ++ commandLine c₂] := by
  obtain ⟨k1, k2⟩ := C54_pieces w w₂ _ h0 h
  have hq : q = commandBytes c₂ := (k2 (c₂, q, true) (by simp)).2.1 rfl
  have hc2 : commandBytes c₂ = commandLine c₂ ++ [CR, LF] ∧ LF ∉ p := by
    generalize hf : false = f at h
    generalize ht : true = t at h
    cases h with
    | more a c h =>
      cases h with
      | more a' c' h =>
        refine ⟨ok_bytes (returnedOk_iff.1 ht.symm), cut_line (w := { w with script := a }) h0 ?_ h1⟩
        intro e
        rw [returnedOk_iff.2 e] at hf
        exact absurd hf (by decide)
  have hj := (receivedLines_join [p ++ commandLine c₂]).2 (by
    intro l hl
    simp at hl
    subst hl
    simp only [List.mem_append, not_or]
    exact ⟨hc2.2, h2⟩)
  rw [k1, hq, hc2.1]
  simpa using hj

example := C54_glued (sampleWorld []) _ (.ping (b!"x")) (.ping (b!"y")) (b!"PING") (b!"PING :y\r\n") rfl
  (.more [.accept 4, .writeFailed ⟨.other 1, 2⟩] _ (.more [.accept 100] _ (.none _))) (by decide) (by decide)

/-- C54 is false in general: a `send` that was dropped by the caller after five bytes were written spoils the
next command. -/
theorem C54_negation : ∃ w', Tried (sampleWorld []) [(.ping (b!"x"), b!"PING ", false),
      (.join (b!"#chan"), b!"JOIN #chan\r\n", true)] w' ∧
    receivedLines (wire (sampleWorld []) w') = [b!"PING JOIN #chan"] ∧
    (sampleWorld []).client.scratch = [] := by
  have h : Tried (sampleWorld []) [(.ping (b!"x"), b!"PING ", false),
      (.join (b!"#chan"), b!"JOIN #chan\r\n", true)]
      ((Cmd.join (b!"#chan")).send { ((Cmd.ping (b!"x")).send { sampleWorld [] with script := [.accept 5] }).2 with
        script := [.accept 100] }).2 :=
    .more [.accept 5] _ (.more [.accept 100] _ (.none _))
  exact ⟨_, h, C54_glued _ _ _ _ _ _ rfl h (by decide) (by decide), rfl⟩

/-- Non-vacuity of the part that holds: a call that failed at once, between two that succeeded. -/
example : ∃ w', Tried (sampleWorld []) [(.ping (b!"x"), b!"PING :x\r\n", true), (.ping (b!"y"), [], false),
      (.join (b!"#chan"), b!"JOIN #chan\r\n", true)] w' ∧
    receivedLines (wire (sampleWorld []) w') = [b!"PING :x", b!"JOIN #chan"] := by
  refine ⟨_, .more [.accept 5, .accept 9] _ (.more [.writeFailed ⟨.other 1, 2⟩] _ (.more [.accept 100] _ (.none _))), ?_⟩
  decide +kernel

end Tmi.Props
