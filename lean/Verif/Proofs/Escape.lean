/-
Lemmas about decoding and unescaping.
-/
import Verif.Model.Escape
import Verif.Spec.Escape
import Verif.Proofs.LineSpec

namespace Tmi.Model
open Tmi.Spec

theorem ofNat_val (c : Char) {n : Nat} (h : n = c.val.toNat) : Char.ofNat n = c := by
  subst h
  exact Char.ofNat_toNat c

theorem decode_char (c : Char) (t : Bytes) :
    decode (String.utf8EncodeChar c ++ t) = c :: decode t := by
  have hv : c.val.toNat < 1114112 := by
    rcases c.valid with h | ⟨_, h⟩
    · have : c.val.toNat < 55296 := h; omega
    · exact h
  have hc := ofNat_val c (n := c.val.toNat) rfl
  unfold String.utf8EncodeChar
  simp only []
  generalize hg : c.val.toNat = v at *
  split
  · rw [List.cons_append, decode.eq_def]
    simp only []
    rw [if_pos (by rw [u8_lt_iff]; simp; omega)]
    congr 1
    rw [← hc]; congr 1; simp; omega
  · split
    · rw [List.cons_append, List.cons_append, decode.eq_def]
      simp only []
      rw [if_neg (by rw [u8_lt_iff]; simp; omega), if_pos (by rw [u8_lt_iff]; simp; omega)]
      simp only [List.nil_append]
      congr 1
      rw [← hc]; congr 1; simp; omega
    · split
      · rw [List.cons_append, List.cons_append, List.cons_append, decode.eq_def]
        simp only []
        rw [if_neg (by rw [u8_lt_iff]; simp; omega), if_neg (by rw [u8_lt_iff]; simp; omega),
          if_pos (by rw [u8_lt_iff]; simp; omega)]
        simp only [List.nil_append]
        congr 1
        rw [← hc]; congr 1; simp; omega
      · rw [List.cons_append, List.cons_append, List.cons_append, List.cons_append, decode.eq_def]
        simp only []
        rw [if_neg (by rw [u8_lt_iff]; simp; omega), if_neg (by rw [u8_lt_iff]; simp; omega),
          if_neg (by rw [u8_lt_iff]; simp; omega)]
        simp only [List.nil_append]
        congr 1
        rw [← hc]; congr 1; simp; omega

theorem enc_cons (c : Char) (cs : List Char) : enc (c :: cs) = String.utf8EncodeChar c ++ enc cs := by
  simp [enc]

theorem enc_append (a b : List Char) : enc (a ++ b) = enc a ++ enc b := by simp [enc]

theorem decode_enc : ∀ cs : List Char, decode (enc cs) = cs
  | [] => rfl
  | c :: cs => by rw [enc_cons, decode_char, decode_enc cs]

theorem enc_injective {a b : List Char} (h : enc a = enc b) : a = b := by
  rw [← decode_enc a, h, decode_enc]

theorem actuallyGo_eq : ∀ (cs : List Char) (e : Bool), actuallyGo cs e = unescapeGo cs e
  | [], _ => rfl
  | c :: cs, e => by
    rw [actuallyGo, unescapeGo, actuallyGo_eq cs, actuallyGo_eq cs, actuallyGo_eq cs]
    cases e
    · by_cases h1 : c = '\\'
      · subst h1; simp
      · simp [h1]
    · by_cases h1 : c = '\\'
      · subst h1; simp
      · simp [h1]

/-- Outside an escape, up to the next backslash, only `⸝` changes. -/
def deComma (c : Char) : Char := if c = '⸝' then ',' else c

theorem unescapeGo_plain : ∀ (pre cs : List Char), '\\' ∉ pre →
    unescapeGo (pre ++ cs) false = pre.map deComma ++ unescapeGo cs false
  | [], _, _ => rfl
  | c :: pre, cs, h => by
    rw [List.mem_cons, not_or] at h
    rw [List.cons_append, unescapeGo, unescapeGo_plain pre cs h.2]
    simp only [Bool.and_false, Bool.false_eq_true, if_false]
    rw [if_neg (Ne.symm h.1)]
    unfold deComma
    by_cases hc : c = '⸝'
    · simp [hc, deComma]
    · simp [hc, deComma]

theorem mem_split_char {x : Char} {s : List Char} (h : x ∈ s) :
    ∃ a b, s = a ++ x :: b ∧ x ∉ a := by
  induction s with
  | nil => simp at h
  | cons y t ih =>
    by_cases hy : y = x
    · exact ⟨[], t, by simp [hy], by simp⟩
    · have : x ∈ t := by
        rcases List.mem_cons.1 h with h | h
        · exact absurd h.symm hy
        · exact h
      obtain ⟨a, b, rfl, ha⟩ := ih this
      exact ⟨y :: a, b, rfl, by simp [ha, Ne.symm hy]⟩

/-- An ASCII byte occurs in an encoding iff the character occurs. -/
theorem ascii_mem_enc {x : UInt8} (hx : x < 0x80) : ∀ {cs : List Char},
    x ∈ enc cs ↔ Char.ofNat x.toNat ∈ cs
  | [] => by simp [enc]
  | c :: cs => by
    rw [enc_cons, List.mem_append, ascii_mem_enc hx, List.mem_cons]
    have : x ∈ String.utf8EncodeChar c ↔ Char.ofNat x.toNat = c := by
      constructor
      · intro h
        rcases enc_cases c with ⟨y, hy, he⟩ | ⟨y, t, he, hy, ht⟩
        · rw [he] at h
          simp at h
          subst h
          have h1 := enc_ascii x hx
          have : enc [Char.ofNat x.toNat] = enc [c] := by simp [enc, h1, he]
          exact List.cons.inj (enc_injective this) |>.1
        · exfalso
          rw [he] at h
          rcases List.mem_cons.1 h with h | h
          · subst h
            have a : x.toNat < 128 := by simpa [u8_lt_iff] using hx
            have b : 192 ≤ x.toNat := by simpa [u8_le_iff] using hy
            omega
          · have := (ht x h).1
            have a : x.toNat < 128 := by simpa [u8_lt_iff] using hx
            have b : 128 ≤ x.toNat := by simpa [u8_le_iff] using this
            omega
      · rintro rfl
        rw [enc_ascii x hx]; simp
    rw [this]

theorem enc_singleton_ascii {x : UInt8} (hx : x < 0x80) : enc [Char.ofNat x.toNat] = [x] := by
  simp [enc, enc_ascii x hx]

theorem Utf8.of_enc (cs : List Char) : Utf8 (enc cs) := ⟨cs, rfl⟩

theorem maybeUnescape_split (pre cs : List Char) (hpre : '\\' ∉ pre) :
    maybeUnescape (enc (pre ++ '\\' :: cs)) = .ok (enc (pre ++ unescapeGo ('\\' :: cs) false)) := by
  have hb : enc (pre ++ '\\' :: cs) = enc pre ++ BSLASH :: enc cs := by
    rw [enc_append, enc_cons]; rfl
  have hn : BSLASH ∉ enc pre := by
    rw [ascii_mem_enc (by decide)]; exact hpre
  have hu : Utf8 (BSLASH :: enc cs) := .cons (by decide) (Utf8.of_enc cs)
  unfold maybeUnescape
  rw [hb, find_append _ hn]
  simp only [actuallyUnescape]
  have h1 : strSlice (enc pre ++ BSLASH :: enc cs) 0 (enc pre).length = .ok (enc pre) := by
    have := strSlice_append (a := []) (k := enc pre) ((Utf8.of_enc pre).append hu) hu
    simpa using this
  rw [h1, bind_ok, strFrom_append hu, bind_ok, actuallyGo_eq]
  have h2 : decode (BSLASH :: enc cs) = '\\' :: cs := by
    have : BSLASH :: enc cs = enc ('\\' :: cs) := by rw [enc_cons]; rfl
    rw [this, decode_enc]
  rw [h2, enc_append]
  rfl

theorem maybeUnescape_none (cs : List Char) (h : '\\' ∉ cs) :
    maybeUnescape (enc cs) = .ok (enc cs) := by
  have hn : BSLASH ∉ enc cs := by rw [ascii_mem_enc (by decide)]; exact h
  unfold maybeUnescape
  rw [find_none hn]

theorem map_deComma_eq_iff : ∀ cs : List Char, cs.map deComma = cs ↔ '⸝' ∉ cs
  | [] => by simp
  | c :: cs => by
    rw [List.map_cons, List.cons.injEq, map_deComma_eq_iff cs, List.mem_cons, not_or]
    refine and_congr ?_ Iff.rfl
    unfold deComma
    by_cases h : c = '⸝'
    · subst h; decide
    · simp [h, Ne.symm h]

theorem unescapeGo_escape_char (c : Char) (cs : List Char) :
    unescapeGo (escapeChar c ++ cs) false = deComma c :: unescapeGo cs false := by
  unfold escapeChar
  split
  · rename_i h; subst h; simp [unescapeGo, deComma]
  · split
    · rename_i h; subst h; simp [unescapeGo, deComma]
    · split
      · rename_i h; subst h; simp [unescapeGo, deComma]
      · split
        · rename_i h; subst h; simp [unescapeGo, deComma]
        · split
          · rename_i h; subst h; simp [unescapeGo, deComma]
          · split
            · rename_i h; subst h; simp [unescapeGo, deComma]
            · rename_i h1 h2 h3 h4 h5 h6
              simp [unescapeGo, deComma, h3]
              by_cases h : c = '⸝' <;> simp [h]

theorem unescapeGo_escape : ∀ cs : List Char, unescapeGo (escape cs) false = cs.map deComma
  | [] => rfl
  | c :: cs => by
    have : escape (c :: cs) = escapeChar c ++ escape cs := by simp [escape]
    rw [this, unescapeGo_escape_char, unescapeGo_escape cs]
    rfl

theorem unescapeGo_known {d : Char} (hd : known d) (cs : List Char) :
    unescapeGo (d :: cs) true = escaped d :: unescapeGo cs false := by
  rcases hd with rfl | rfl | rfl | rfl | rfl <;> simp [unescapeGo, escaped]

theorem unescapeGo_backslash (cs : List Char) :
    unescapeGo ('\\' :: cs) false = unescapeGo cs true := by simp [unescapeGo]

theorem unescapeGo_run : ∀ (run cs : List Char), (∀ c ∈ run, ¬ known c) →
    unescapeGo (run ++ cs) true = run.map deComma ++ unescapeGo cs true
  | [], _, _ => rfl
  | c :: run, cs, h => by
    have hc := h c (by simp)
    unfold known at hc
    simp only [not_or] at hc
    obtain ⟨h1, h2, h3, h4, h5⟩ := hc
    rw [List.cons_append, unescapeGo, unescapeGo_run run cs fun d hd => h d (by simp [hd])]
    unfold deComma
    by_cases hx : c = '⸝'
    · simp [hx, deComma]
    · simp [h1, h2, h3, h4, h5, hx, deComma]

theorem unescapeGo_well : ∀ (n : Nat) (cs : List Char), cs.length ≤ n → WellEscaped cs →
    unescapeGo cs false = unesc cs
  | _, [], _, _ => by simp [unescapeGo, unesc]
  | 0, _ :: _, h, _ => by simp at h
  | n + 1, c :: cs, hn, h => by
    rw [WellEscaped.eq_def] at h
    rw [unesc.eq_def]
    simp only [] at h ⊢
    by_cases hc : c = '\\'
    · subst hc
      simp only [if_true] at h ⊢
      rw [unescapeGo_backslash]
      cases cs with
      | nil => simp [unescapeGo]
      | cons d cs =>
        simp only [] at h
        rw [unescapeGo_known h.1]
        simp only [List.length_cons] at hn
        rw [unescapeGo_well n cs (by omega) h.2]
    · rw [if_neg hc] at h
      simp only [if_neg hc]
      have := unescapeGo_plain [c] cs (by simp [Ne.symm hc])
      rw [List.singleton_append] at this
      simp only [List.length_cons] at hn
      rw [this, unescapeGo_well n cs (by omega) h]
      unfold deComma
      by_cases hx : c = '⸝' <;> simp [hx, deComma]

end Tmi.Model
