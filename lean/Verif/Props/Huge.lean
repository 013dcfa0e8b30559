/-
Properties C01 and C02 on lines of 4 GiB and more: positions are kept in 32 bits.
-/
import Verif.Props.Sizes

namespace Tmi.Props
open Tmi.Model Tmi.Spec

/-- C02, what is left of the claim without a bound on the length: after `PING `, whatever its length, the parameters are cut
to the length of the line modulo 2^32; reading them panics when that is before their start or inside a character. -/
theorem C02_any_length (b : Build) (p : Bytes) (hu : Utf8 p) (hne : p ≠ []) (hh : p.head? ≠ some HASH) :
    ∃ m, MsgRef.parse b (b!"PING " ++ p) = .ok (some m) ∧ m.raw = b!"PING " ++ p ∧ m.command = .ok .ping ∧
      m.params =
        if 5 ≤ (p.length + 5) % 4294967296 ∧ isCharBoundary p ((p.length + 5) % 4294967296 - 5) = true then
          .ok (some (p.take ((p.length + 5) % 4294967296 - 5)))
        else .error .slice := by
  have hs : Utf8 (b!"PING " ++ p) := Utf8.append (.of_ascii (by decide)) hu
  have htags : parseTags b (b!"PING " ++ p) 0 = .ok (none, 0) := parseTags_no_at b (by intro r h; cases h)
  have hpfx : parsePrefix (b!"PING " ++ p) 0 = .ok (none, 0) := rfl
  have hcmd : parseCommand (b!"PING " ++ p) 0 = .ok (some .ping, 5) := by
    unfold parseCommand
    rw [strFrom_zero, bind_ok]
    have hf : find SP (b!"PING " ++ p) = some 4 := find_append (a := b!"PING") p (by decide)
    rw [hf]
    have hsl := strSlice_append (a := []) (k := b!"PING") (b := SP :: p) hs (.cons (by decide) hu)
    have hsl' : strSlice (b!"PING " ++ p) 0 4 = .ok (b!"PING") := hsl
    show (strSlice (b!"PING " ++ p) 0 4 >>= _) = _
    rw [hsl']
    rfl
  have hfrom : strFrom (b!"PING " ++ p) 5 = .ok p := strFrom_append (a := b!"PING ") hu
  have hchan : parseChannel (b!"PING " ++ p) 5 = .ok (none, 5) := by
    unfold parseChannel
    rw [hfrom, bind_ok]
    cases p with
    | nil => exact absurd rfl hne
    | cons c r =>
      have hc : c ≠ HASH := fun h => hh (by rw [h]; rfl)
      simp only [startsWith, beq_eq_false_iff_ne.2 hc, Bool.false_eq_true, if_false]
      rfl
  have hpar : parseParams (b!"PING " ++ p) 5 = .ok (some (Span.mk' 5 (p.length + 5))) := by
    unfold parseParams
    rw [hfrom, bind_ok]
    cases p with
    | nil => exact absurd rfl hne
    | cons c r => rfl
  refine ⟨⟨b.checks, b!"PING " ++ p, [], none, .ping, none, some (Span.mk' 5 (p.length + 5))⟩, ?_, rfl, rfl, ?_⟩
  · unfold MsgRef.parse
    rw [htags, bind_ok]
    dsimp only
    rw [hpfx, bind_ok]
    dsimp only
    rw [hcmd, bind_ok]
    dsimp only
    rw [hchan, bind_ok]
    dsimp only
    rw [hpar]
    rfl
  · show (strSlice (b!"PING " ++ p) (5 % 4294967296) ((p.length + 5) % 4294967296) >>= fun x => .ok (some x)) = _
    rw [show 5 % 4294967296 = 5 from rfl]
    by_cases h5 : 5 ≤ (p.length + 5) % 4294967296
    · have h := strSlice_shift (A := b!"PING ") hu (i := 0) (j := (p.length + 5) % 4294967296 - 5) (Nat.zero_le _)
      rw [show (b!"PING ").length + 0 = 5 from rfl, show (b!"PING ").length = 5 from rfl,
        show 5 + ((p.length + 5) % 4294967296 - 5) = (p.length + 5) % 4294967296 by omega] at h
      rw [h]
      simp only [h5, boundary_zero, Bool.true_and, true_and, List.drop_zero, Nat.sub_zero]
      split <;> rfl
    · rw [if_neg (fun h => h5 h.1)]
      unfold strSlice
      simp only [h5, decide_false, Bool.false_and, Bool.false_eq_true, if_false]
      rfl

example := C02_any_length ⟨.simd .neon 0, true⟩ (b!":tmi.twitch.tv") (.of_ascii (by decide)) (by decide) (by decide)

private theorem cut_short (b : Build) (n : Nat) (hn : n ≠ 0) (h : (n + 5) % 4294967296 < 5) :
    ∃ m, MsgRef.parse b (b!"PING " ++ List.replicate n 0x61) = .ok (some m) ∧ m.params = .error .slice ∧
      m.text = .error .slice := by
  have hu : Utf8 (List.replicate n 0x61) := .of_ascii (by intro x hx; rw [List.eq_of_mem_replicate hx]; decide)
  have hh : (List.replicate n (0x61 : UInt8)).head? ≠ some HASH := by
    cases n with
    | zero => exact absurd rfl hn
    | succ n => rw [List.replicate_succ, List.head?_cons]; decide
  have hne : List.replicate n (0x61 : UInt8) ≠ [] := by
    intro h
    have := congrArg List.length h
    rw [List.length_replicate] at this
    exact hn this
  obtain ⟨m, hm, -, -, hp⟩ := C02_any_length b _ hu hne hh
  rw [List.length_replicate, if_neg (fun h' => absurd h'.1 (by omega))] at hp
  refine ⟨m, hm, hp, ?_⟩
  unfold MsgRef.params at hp
  unfold MsgRef.text
  cases hq : m.parts.params with
  | none => rw [hq] at hp; cases hp
  | some sp =>
    rw [hq] at hp
    cases hg : sp.get m.src with
    | ok x => rw [optSlice, hg] at hp; cases hp
    | error e =>
      rw [optSlice, hg] at hp
      cases hp
      dsimp only
      rw [hg]
      rfl

/-- C01 and C02 are false without a bound on the length, in every build: in a line of 2^32 + 1 bytes, reading the
parameters or the text panics. -/
theorem C01_negation_4GiB (b : Build) :
    ∃ m, MsgRef.parse b (b!"PING " ++ List.replicate 4294967292 0x61) = .ok (some m) ∧ m.params = .error .slice ∧
      m.text = .error .slice :=
  cut_short b 4294967292 (by decide) (by decide)

/-- C02 is false without a bound on the length, in every build: of 2^32 bytes of parameters behind `PING `, none is left. -/
theorem C02_negation_4GiB (b : Build) :
    ∃ m, MsgRef.parse b (b!"PING " ++ List.replicate 4294967296 0x61) = .ok (some m) ∧ m.params = .ok (some []) := by
  have key : ∀ n, n % 4294967296 = 0 → n ≠ 0 →
      ∃ m, MsgRef.parse b (b!"PING " ++ List.replicate n 0x61) = .ok (some m) ∧ m.params = .ok (some []) := by
    intro n h0 hn
    have hu : Utf8 (List.replicate n 0x61) := .of_ascii (by intro x hx; rw [List.eq_of_mem_replicate hx]; decide)
    have hh : (List.replicate n (0x61 : UInt8)).head? ≠ some HASH := by
      cases n with
      | zero => exact absurd rfl hn
      | succ n => rw [List.replicate_succ, List.head?_cons]; decide
    have hne : List.replicate n (0x61 : UInt8) ≠ [] := by
      intro h
      have := congrArg List.length h
      rw [List.length_replicate] at this
      exact hn this
    obtain ⟨m, hm, -, -, hp⟩ := C02_any_length b _ hu hne hh
    refine ⟨m, hm, ?_⟩
    rw [hp, List.length_replicate, show (n + 5) % 4294967296 = 5 by omega]
    simp [boundary_zero]
  exact key 4294967296 (by decide) (by decide)

/-- Non-vacuity: below 4 GiB nothing is cut. -/
example (b : Build) : ∃ m, MsgRef.parse b (b!"PING abc") = .ok (some m) ∧ m.params = .ok (some (b!"abc")) := by
  obtain ⟨m, hm, -, -, hp⟩ := C02_any_length b (b!"abc") (.of_ascii (by decide)) (by decide) (by decide)
  exact ⟨m, hm, hp⟩

end Tmi.Props
