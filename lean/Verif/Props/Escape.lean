/-
Properties C18-C20: unescaping tag values.
-/
import Verif.Proofs.Escape

namespace Tmi.Props
open Tmi.Model Tmi.Spec

/-! ## C18 -/

/-- C18: `unescape` inverts escaping for every string without `⸝`, and only for those. -/
theorem C18_unescape_escape (cs : List Char) :
    unescape (enc (escape cs)) = enc cs ↔ '⸝' ∉ cs := by
  unfold unescape
  rw [decode_enc, unescapeGo_escape, ← map_deComma_eq_iff]
  constructor
  · exact enc_injective
  · intro h; rw [h]

/-- Non-vacuity of C18. -/
example : '⸝' ∉ "a; b\\s,\r\n".toList ∧
    escape "a; b\\s,\r\n".toList = "a\\:\\sb\\\\s⸝\\r\\n".toList := by decide +kernel

/-- An escaped string contains none of the characters that would break a tag section. -/
theorem C18_escape_safe (cs : List Char) :
    SP ∉ enc (escape cs) ∧ SEMI ∉ enc (escape cs) ∧ CR ∉ enc (escape cs) ∧ LF ∉ enc (escape cs) := by
  have key : ∀ x : UInt8, x < 0x80 → (∀ c, Char.ofNat x.toNat ∉ escapeChar c) →
      x ∉ enc (escape cs) := by
    intro x hx hc
    rw [ascii_mem_enc hx]
    unfold escape
    intro h
    obtain ⟨c, _, h⟩ := List.mem_flatMap.1 h
    exact hc c h
  have hesc : ∀ (d : Char), d ∈ [' ', ';', '\r', '\n'] → ∀ c, d ∉ escapeChar c := by
    intro d hd c h
    unfold escapeChar at h
    simp only [List.mem_cons, List.not_mem_nil, or_false] at hd
    split at h
    · rcases hd with rfl | rfl | rfl | rfl <;> revert h <;> decide
    · split at h
      · rcases hd with rfl | rfl | rfl | rfl <;> revert h <;> decide
      · split at h
        · rcases hd with rfl | rfl | rfl | rfl <;> revert h <;> decide
        · split at h
          · rcases hd with rfl | rfl | rfl | rfl <;> revert h <;> decide
          · split at h
            · rcases hd with rfl | rfl | rfl | rfl <;> revert h <;> decide
            · split at h
              · rcases hd with rfl | rfl | rfl | rfl <;> revert h <;> decide
              · rename_i h1 h2 h3 h4 h5 h6
                simp at h
                subst h
                rcases hd with rfl | rfl | rfl | rfl
                · exact h2 rfl
                · exact h1 rfl
                · exact h4 rfl
                · exact h5 rfl
  refine ⟨key SP (by decide) (hesc ' ' (by simp)), key SEMI (by decide) (hesc ';' (by simp)),
    key CR (by decide) (hesc '\r' (by simp)), key LF (by decide) (hesc '\n' (by simp))⟩

/-! ## C19 -/

/-- C19, exactly: split the string at its first backslash; the two functions agree iff there is no
`⸝` before it.  `maybe_unescape` never panics, and returns its argument when there is no backslash. -/
theorem C19_agree_iff (pre cs : List Char) (hpre : '\\' ∉ pre) (hcs : cs = [] ∨ ∃ t, cs = '\\' :: t) :
    (∃ r, maybeUnescape (enc (pre ++ cs)) = .ok r ∧ (cs = [] → r = enc (pre ++ cs))) ∧
    (maybeUnescape (enc (pre ++ cs)) = .ok (unescape (enc (pre ++ cs))) ↔ '⸝' ∉ pre) := by
  have hun : unescape (enc (pre ++ cs)) = enc (pre.map deComma ++ unescapeGo cs false) := by
    unfold unescape
    rw [decode_enc, unescapeGo_plain pre cs hpre]
  have hmay : maybeUnescape (enc (pre ++ cs)) = .ok (enc (pre ++ unescapeGo cs false)) := by
    rcases hcs with rfl | ⟨t, rfl⟩
    · have : unescapeGo [] false = [] := rfl
      rw [this, List.append_nil]
      exact maybeUnescape_none pre hpre
    · exact maybeUnescape_split pre t hpre
  refine ⟨⟨_, hmay, ?_⟩, ?_⟩
  · rintro rfl; rfl
  · rw [hmay, hun, Except.ok.injEq, ← map_deComma_eq_iff]
    constructor
    · intro h
      exact (List.append_cancel_right (enc_injective h)).symm
    · intro h; rw [h]

example := C19_agree_iff "a⸝".toList "\\sb".toList (by decide) (.inr ⟨"sb".toList, by decide⟩)

/-- C19, the part that holds, for whole strings: they agree on every string without `⸝`. -/
theorem C19_agree_partial (cs : List Char) (h : '⸝' ∉ cs) :
    maybeUnescape (enc cs) = .ok (unescape (enc cs)) := by
  by_cases hb : '\\' ∈ cs
  · obtain ⟨a, b, rfl, ha⟩ := mem_split_char hb
    exact (C19_agree_iff a ('\\' :: b) ha (.inr ⟨b, rfl⟩)).2.2 fun hx => h (by simp [hx])
  · have := (C19_agree_iff cs [] hb (.inl rfl)).2.2 h
    rw [List.append_nil] at this
    exact this

example := C19_agree_partial "a\\sb".toList (by decide)

/-- `maybe_unescape` never panics. -/
theorem C19_total (s : Bytes) (hs : Utf8 s) : ∃ cs', maybeUnescape s = .ok (enc cs') := by
  obtain ⟨cs, rfl⟩ := hs
  by_cases hb : '\\' ∈ cs
  · obtain ⟨a, b, rfl, ha⟩ := mem_split_char hb
    exact ⟨_, maybeUnescape_split a b ha⟩
  · exact ⟨_, maybeUnescape_none cs hb⟩

example := C19_total (b!"a\\sb") (.of_ascii (by decide))

/-- C19 is false: `⸝` alone becomes a comma in `unescape` and is kept by `maybe_unescape`. -/
theorem C19_negation : maybeUnescape (enc ['⸝']) = .ok (enc ['⸝']) ∧
    unescape (enc ['⸝']) = enc [','] := by decide +kernel

example : '⸝' ∉ decode (b!"a\\sb") ∧ maybeUnescape (b!"a\\sb") = .ok (b!"a b") := by decide +kernel

/-! ## C20 -/

/-- C20, the part that holds: in a string where every escape is one of `\:` `\s` `\\` `\r` `\n`, a
backslash affects only the next character. -/
theorem C20_next_only_partial (cs : List Char) (h : WellEscaped cs) :
    unescape (enc cs) = enc (unesc cs) ∧
    ('⸝' ∉ cs → maybeUnescape (enc cs) = .ok (enc (unesc cs))) := by
  have key : unescape (enc cs) = enc (unesc cs) := by
    unfold unescape
    rw [decode_enc, unescapeGo_well cs.length cs (Nat.le_refl _) h]
  refine ⟨key, fun hc => ?_⟩
  rw [← key]
  exact C19_agree_partial cs hc

example := C20_next_only_partial "a\\sb\\\\".toList (by simp [WellEscaped, known])

/-- C20, exactly what happens otherwise: after a backslash, characters without a meaning are copied
and the first later character with a meaning is still treated as escaped. -/
theorem C20_sticky (run cs : List Char) (d : Char) (hrun : ∀ c ∈ run, ¬ known c) (hd : known d)
    (hcomma : '⸝' ∉ run) :
    unescape (enc ('\\' :: (run ++ d :: cs))) = enc run ++ enc [escaped d] ++ unescape (enc cs) := by
  unfold unescape
  rw [decode_enc, decode_enc, unescapeGo_backslash, unescapeGo_run run _ hrun, unescapeGo_known hd,
    (map_deComma_eq_iff run).2 hcomma]
  have : run ++ escaped d :: unescapeGo cs false = run ++ [escaped d] ++ unescapeGo cs false := by simp
  rw [this, enc_append, enc_append]

example := C20_sticky "xyz".toList "rest".toList 's' (by unfold known; decide) (by unfold known; decide) (by decide)

/-- C20 is false: in `\xs` the `s`, two characters after the backslash, becomes a space. -/
theorem C20_negation : unescape (b!"\\xs") = b!"x " ∧ maybeUnescape (b!"\\xs") = .ok (b!"x ") := by
  decide +kernel

example : WellEscaped "a\\sb\\\\".toList := by
  simp [WellEscaped, known]

end Tmi.Props
