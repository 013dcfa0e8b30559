/-
The configuration can be read back from what `Debug` prints of them.
-/
import Verif.Proofs.DebugTyped
import Verif.Model.ErrorText

namespace Tmi.Proofs
open Model Spec

/-! ### The configuration -/

theorem shaped_backoff (v : Backoff) : Dbg.Shaped v.dbg := by
  unfold Backoff.dbg
  exact shaped_struct (by decide) (fields_cons (by decide) (shaped_opt shaped_nat _) (fields_cons (by decide)
    (shaped_duration _) (fields_cons (by decide) (shaped_nat _) (fields_cons (by decide) (shaped_duration _) fields_nil))))

theorem backoff_dbg (v w : Backoff) : v.dbg = w.dbg ↔ v = w := by
  constructor
  · intro h
    simp only [Backoff.dbg, Dbg.struct, Items.ofFields, Dbg.node.injEq, Items.cons.injEq, true_and, and_true] at h
    obtain ⟨h1, h2, h3, h4⟩ := h
    cases v
    cases w
    rw [optNat_dbg] at h1
    rw [duration_dbg] at h2 h4
    rw [nat_dbg] at h3
    simp_all
  · rintro rfl; rfl

theorem backoff_strings (v : Backoff) : ∀ s ∈ v.dbg.strings, Utf8 s := by
  intro s hs
  cases v with
  | mk a b c d =>
    cases a <;> simp [Backoff.dbg, Dbg.struct, Items.ofFields, Dbg.strings, Items.strings, dbgOpt, dbgDuration, dbgNat, Dbg.tuple,
      Items.ofList] at hs

theorem good_backoff (v : Backoff) : Dbg.Good v.dbg := good_of_shaped _ (shaped_backoff v) (backoff_strings v)

theorem good_duration (n : Nat) : Dbg.Good (dbgDuration n) := shaped_duration n

/-- The part of the text behind the login. -/
theorem tail_inj (esc : Nat → Bool) {t t' : Nat} {k k' : Backoff} {r r' : Bytes}
    (e : b!", timeout: " ++ ((dbgDuration t).compact esc ++ (b!", backoff: " ++ (k.dbg.compact esc ++ (b!" }" ++ r)))) =
      b!", timeout: " ++ ((dbgDuration t').compact esc ++ (b!", backoff: " ++ (k'.dbg.compact esc ++ (b!" }" ++ r'))))) :
    t = t' ∧ k = k' := by
  have e := List.append_cancel_left e
  obtain ⟨e1, e⟩ := compact_inj esc _ _ _ _ (good_duration t) (good_duration t') (.comma _) (.comma _) e
  have e := List.append_cancel_left (as := b!", backoff: ") e
  obtain ⟨e2, _⟩ := compact_inj esc _ _ _ _ (good_backoff k) (good_backoff k') (.close (.brace _)) (.close (.brace _)) e
  exact ⟨(duration_dbg t t').1 e1, (backoff_dbg k k').1 e2⟩

theorem config_compact (esc : Nat → Bool) (c : Config) : c.dbg.compact esc =
    b!"Config { credentials: Credentials { nick: " ++ (debugStr esc c.credentials.login ++ (b!", .. }" ++
      (b!", timeout: " ++ ((dbgDuration c.timeout).compact esc ++ (b!", backoff: " ++ (c.backoff.dbg.compact esc ++ (b!" }" ++ []))))))) := by
  unfold Config.dbg Credentials.dbg
  simp only [Dbg.struct, Items.ofFields, Dbg.compact, Items.compact, labelText]
  generalize debugStr esc c.credentials.login = x
  generalize (dbgDuration c.timeout).compact esc = y
  generalize c.backoff.dbg.compact esc = z
  simp

theorem config_compact_inj (esc : Nat → Bool) {c c' : Config} (hu : Utf8 c.credentials.login)
    (hu' : Utf8 c'.credentials.login) (e : c.dbg.compact esc = c'.dbg.compact esc) :
    c.credentials.login = c'.credentials.login ∧ c.timeout = c'.timeout ∧ c.backoff = c'.backoff := by
  rw [config_compact, config_compact] at e
  have e := List.append_cancel_left e
  obtain ⟨e1, e⟩ := debugStr_inj hu hu' e
  exact ⟨e1, tail_inj esc (List.append_cancel_left (as := b!", .. }") e)⟩

theorem config_pretty (esc : Nat → Bool) (c : Config) : ∃ i : Items, c.dbg.pretty esc = b!"Config {\n" ++ (i.pretty esc ++ 0x7D :: []) ∧
    Items.flat esc i = b!"credentials: Credentials {\n" ++
      (pad true ((b!"nick: " ++ (debugStr esc c.credentials.login ++ b!",")) ++ 0x0A :: b!"..\n") ++ 0x7D ::
      (b!",\ntimeout: " ++ ((dbgDuration c.timeout).pretty esc ++
      (b!",\nbackoff: " ++ (c.backoff.dbg.pretty esc ++ (b!",\n" ++ [])))))) := by
  refine ⟨.ofFields [(b!"credentials", c.credentials.dbg), (b!"timeout", dbgDuration c.timeout), (b!"backoff", c.backoff.dbg)],
    ?_, ?_⟩
  · unfold Config.dbg
    simp only [Dbg.struct, Items.ofFields, Dbg.pretty, Items.pretty]
    simp
  · rw [pad_append_nl]
    have e : pad true (b!"..\n") = b!"    ..\n" := by decide
    rw [e]
    unfold Credentials.dbg
    simp only [Items.ofFields, Items.flat, Dbg.pretty, Items.pretty, labelText]
    generalize debugStr esc c.credentials.login = x
    generalize (dbgDuration c.timeout).pretty esc = y
    generalize c.backoff.dbg.pretty esc = z
    have h : b!"nick: " ++ x ++ b!",\n" = (b!"nick: " ++ (x ++ b!",")) ++ [0x0A] := by simp
    simp only [if_neg (show (b!"nick" : Bytes) ≠ [] by decide), if_neg (show (b!"credentials" : Bytes) ≠ [] by decide),
      if_neg (show (b!"timeout" : Bytes) ≠ [] by decide), if_neg (show (b!"backoff" : Bytes) ≠ [] by decide)]
    have h' : (b!"nick" ++ b!": " ++ x ++ b!",\n" : Bytes) = (b!"nick: " ++ (x ++ b!",")) ++ [0x0A] := by simp
    rw [h']
    generalize pad true (b!"nick: " ++ (x ++ b!",") ++ [0x0A]) = p
    simp

theorem config_pretty_inj (esc : Nat → Bool) {c c' : Config} (hu : Utf8 c.credentials.login)
    (hu' : Utf8 c'.credentials.login) (e : c.dbg.pretty esc = c'.dbg.pretty esc) :
    c.credentials.login = c'.credentials.login ∧ c.timeout = c'.timeout ∧ c.backoff = c'.backoff := by
  obtain ⟨i, h1, h2⟩ := config_pretty esc c
  obtain ⟨i', h1', h2'⟩ := config_pretty esc c'
  rw [h1, h1'] at e
  have e := List.append_cancel_left e
  obtain ⟨e, _⟩ := flat_inj_of_pad esc i i' 0x7D (by decide) [] [] e
  rw [h2, h2'] at e
  have e := List.append_cancel_left e
  have nl : ∀ x : Bytes, (x ++ 0x0A :: b!"..\n" = [] ∧ true = true) ∨ ∃ a, x ++ 0x0A :: b!"..\n" = a ++ [0x0A] :=
    fun x => .inr ⟨x ++ 0x0A :: b!"..", by simp⟩
  obtain ⟨e1, e⟩ := pad_inj true _ _ 0x7D 0x7D _ _ (by decide) (by decide) (nl _) (nl _) e
  have e1 := List.append_cancel_right e1
  have e1 := List.append_cancel_left e1
  obtain ⟨e1, _⟩ := debugStr_inj hu hu' e1
  have e := List.append_cancel_left (as := b!",\ntimeout: ") (List.cons.inj e).2
  obtain ⟨e2, e⟩ := pretty_inj esc _ _ _ _ (good_duration _) (good_duration _) (.comma _) (.comma _) e
  have e := List.append_cancel_left (as := b!",\nbackoff: ") e
  obtain ⟨e3, _⟩ := pretty_inj esc _ _ _ _ (good_backoff _) (good_backoff _) (.comma _) (.comma _) e
  exact ⟨e1, (duration_dbg _ _).1 e2, (backoff_dbg _ _).1 e3⟩

end Tmi.Proofs
