/-
Lemmas for Props/Sorted: the order of written times.
-/
import Verif.Proofs.Keys
import Verif.Proofs.DebugDate

namespace Tmi.Proofs
open Tmi Model Spec

theorem strCmp_same : ∀ (p a b : Bytes), strCmp (p ++ a) (p ++ b) = strCmp a b
  | [], _, _ => rfl
  | x :: p, a, b => by
    simp only [List.cons_append, strCmp, Nat.lt_irrefl, if_false]
    exact strCmp_same p a b

theorem digits_lt : ∀ (w a b : Nat) (r r' : Bytes), a < b → b < 10 ^ w →
    strCmp (digitsOf w a ++ r) (digitsOf w b ++ r') = .lt
  | 0, a, b, r, r', h, h' => by simp at h'; omega
  | w + 1, a, b, r, r', h, h' => by
    simp only [digitsOf, List.append_assoc]
    by_cases hd : a / 10 < b / 10
    · exact digits_lt w _ _ _ _ hd (by rw [Nat.pow_succ] at h'; omega)
    · have e : a / 10 = b / 10 := by omega
      rw [e, strCmp_same]
      have : (UInt8.ofNat (48 + a % 10)).toNat < (UInt8.ofNat (48 + b % 10)).toNat := by
        simp only [UInt8.toNat_ofNat']
        omega
      show (if _ then Ordering.lt else _) = _
      exact if_pos this

/-- An earlier day has an earlier date. -/
theorem date_lt {day day' y y' : Int} {m m' d d' : Nat} (h : IsDate day y m d) (h' : IsDate day' y' m' d')
    (hlt : day < day') : y < y' ∨ y = y' ∧ (m < m' ∨ m = m' ∧ d < d') := by
  obtain ⟨a1, a2⟩ := date_in_year h
  obtain ⟨b1, b2⟩ := date_in_year h'
  have hy : y ≤ y' := by
    by_cases h2 : y' < y
    · have := daysTo_mono (y' + 1) (y - (y' + 1)).toNat
      rw [show y' + 1 + ((y - (y' + 1)).toNat : Int) = y by omega] at this
      omega
    · omega
  by_cases he : y < y'
  · exact .inl he
  · have : y = y' := by omega
    subst this
    refine .inr ⟨rfl, ?_⟩
    obtain ⟨⟨h1, h2⟩, ⟨h3, h4⟩, h5⟩ := h
    obtain ⟨⟨g1, g2⟩, ⟨g3, g4⟩, g5⟩ := h'
    rcases Nat.lt_trichotomy m m' with hl | hl | hl
    · exact .inl hl
    · subst hl; exact .inr ⟨rfl, by omega⟩
    · exfalso
      obtain ⟨j, rfl⟩ : ∃ j, m' = j + 1 := ⟨m' - 1, by omega⟩
      have := daysBefore_mono y j (m - (j + 1))
      rw [show j + 1 + (m - (j + 1)) = m by omega, if_neg (by omega)] at this
      omega

theorem dom_lt {day y : Int} {m d : Nat} (h : IsDate day y m d) : d < 10 ^ 2 := by
  have := h.inMonth.2
  unfold daysIn at this
  repeat' split at this
  all_goals simp; omega

/-- An earlier second is written earlier. -/
theorem seconds_lt {day day' y y' : Int} {m m' d d' hh hh' mi mi' s s' : Nat} (n n' : Nat)
    (h : IsDate day y m d) (h' : IsDate day' y' m' d') (hy : 0 ≤ y ∧ y < 10000) (hy' : 0 ≤ y' ∧ y' < 10000)
    (a1 : hh < 24) (a2 : mi < 60) (a3 : s < 60) (b1 : hh' < 24) (b2 : mi' < 60) (b3 : s' < 60)
    (hlt : day * 86400 + hh * 3600 + mi * 60 + s < day' * 86400 + hh' * 3600 + mi' * 60 + s') :
    strCmp (showTime y m d hh mi s n) (showTime y' m' d' hh' mi' s' n') = .lt := by
  unfold showTime showYear
  rw [if_pos hy, if_pos hy']
  simp only [List.append_assoc]
  have k : ∀ {a b w : Nat}, b < 10 ^ w → a < b → ∀ r r', strCmp (digitsOf w a ++ r) (digitsOf w b ++ r') = .lt :=
    fun hb hab r r' => digits_lt _ _ _ r r' hab hb
  have hm' : m' < 10 ^ 2 := by have := h'.inYear.2; simp; omega
  by_cases hday : day < day'
  · rcases date_lt h h' hday with hl | ⟨rfl, hl | ⟨rfl, hl⟩⟩
    · exact k (by simp; omega) (by omega) _ _
    · rw [strCmp_same, strCmp_same]; exact k hm' hl _ _
    · rw [strCmp_same, strCmp_same, strCmp_same, strCmp_same]; exact k (dom_lt h') hl _ _
  · have : day = day' := by omega
    subst this
    obtain ⟨rfl, rfl, rfl⟩ := date_unique h h'
    rw [strCmp_same, strCmp_same, strCmp_same, strCmp_same, strCmp_same, strCmp_same]
    by_cases c1 : hh < hh'
    · exact k (by simp; omega) c1 _ _
    · have : hh = hh' := by omega
      subst this
      rw [strCmp_same, strCmp_same]
      by_cases c2 : mi < mi'
      · exact k (by simp; omega) c2 _ _
      · have : mi = mi' := by omega
        subst this
        rw [strCmp_same, strCmp_same]
        exact k (by simp; omega) (by omega) _ _

/-- Fractions of the same second, in milliseconds: a later one is written later, but not after a whole second. -/
theorem fraction_lt {f g : Nat} (h : f < g) (hg : g < 1000) (r r' : Bytes) :
    strCmp (showFraction (f * 1000000) ++ (b!"Z" ++ r)) (showFraction (g * 1000000) ++ (b!"Z" ++ r')) =
      if f = 0 then .gt else .lt := by
  unfold showFraction
  rw [if_neg (show g * 1000000 ≠ 0 by omega), if_pos (show g * 1000000 % 1000000 = 0 by omega),
    Nat.mul_div_cancel _ (by decide)]
  by_cases hf : f = 0
  · subst hf
    rw [if_pos rfl, if_pos rfl]
    simp [strCmp]
  · rw [if_neg (show f * 1000000 ≠ 0 by omega), if_pos (show f * 1000000 % 1000000 = 0 by omega),
      Nat.mul_div_cancel _ (by decide), if_neg hf]
    simp only [List.append_assoc]
    rw [strCmp_same]
    exact digits_lt _ _ _ _ _ h (by simpa using hg)

theorem isInt_fun {s : Bytes} {a b : Int} (ha : IsInt s a) (hb : IsInt s b) : a = b := by
  have nat : ∀ {s : Bytes} {n m : Nat}, IsNat s n → IsNat s m → n = m := by
    rintro s n m ⟨x, ⟨x1, x2⟩, hx, rfl⟩ ⟨y, ⟨y1, y2⟩, hy, rfl⟩
    rcases hx with rfl | rfl <;> rcases hy with hy | hy
    · rw [hy]
    · have := x2 0x2B (by rw [hy]; simp); exact absurd this (by decide)
    · have := y2 0x2B (by rw [← hy]; simp); exact absurd this (by decide)
    · injection hy with _ hy; rw [hy]
  have sign : ∀ {s ds : Bytes} {n : Nat}, IsNat s n → s ≠ 0x2D :: ds := by
    rintro s ds n ⟨x, ⟨x1, x2⟩, rfl | rfl, _⟩ e
    · have := x2 0x2D (by rw [e]; simp); exact absurd this (by decide)
    · injection e with e _; exact absurd e (by decide)
  rcases ha with ⟨n, hn, rfl⟩ | ⟨x, hx, rfl, rfl⟩ <;> rcases hb with ⟨m, hm, rfl⟩ | ⟨y, hy, e, rfl⟩
  · rw [nat hn hm]
  · exact absurd e (sign hn)
  · exact absurd rfl (sign hm)
  · injection e with _ e; rw [e]

end Tmi.Proofs
