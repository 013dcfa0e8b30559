/-
The printed date of a timestamp is the date of the Gregorian calendar.
-/
import Verif.Proofs.DebugTyped

namespace Tmi.Proofs
open Model Spec

theorem monthDay_bound : ∀ (ls : List Nat) (m o : Nat), o < ls.sum →
    ∃ k, (monthDay m o ls).1 = m + k ∧ 1 ≤ (monthDay m o ls).2 ∧ ∃ len, ls[k]? = some len ∧ (monthDay m o ls).2 ≤ len
  | [], m, o, h => by simp at h
  | len :: rest, m, o, h => by
    unfold monthDay
    by_cases hl : o < len
    · rw [if_pos hl]
      exact ⟨0, rfl, by simp, len, rfl, hl⟩
    · rw [if_neg hl]
      obtain ⟨k, h1, h2, l, h3, h4⟩ := monthDay_bound rest (m + 1) (o - len) (by simp at h; omega)
      exact ⟨k + 1, by omega, h2, l, by simpa using h3, h4⟩

theorem lengths_sum (leap : Bool) : (monthLengths leap).sum = if leap then 366 else 365 := by
  cases leap <;> decide

theorem month_lookup (leap : Bool) (year : Int) (hy : leap = true ↔ Leap year) (k len : Nat)
    (h : (monthLengths leap)[k]? = some len) : k < 12 ∧ len = daysIn year (k + 1) ∧
      ((monthLengths leap).take k).sum = daysBefore year (k + 1) := by
  have hk : k < 12 := by
    have := (List.getElem?_eq_some_iff.1 h).1
    simpa [monthLengths] using this
  have hl : (if Leap year then 29 else 28) = if leap then 29 else 28 := by
    cases leap
    · rw [if_neg (by rw [← hy]; simp)]; rfl
    · rw [if_pos (hy.1 rfl)]; rfl
  have key : ∀ j < 12, (monthLengths leap)[j]? = some (daysIn year (j + 1)) := by
    intro j hj
    unfold daysIn
    rw [hl]
    rcases j with _ | _ | _ | _ | _ | _ | _ | _ | _ | _ | _ | _ | j <;> first | omega | (cases leap <;> rfl)
  have sums : ∀ j < 12, ((monthLengths leap).take j).sum = daysBefore year (j + 1) := by
    intro j
    induction j with
    | zero => intro _; rfl
    | succ j ih =>
      intro hj
      rw [List.take_succ, key j (by omega), List.sum_append, ih (by omega)]
      simp [daysBefore]
  refine ⟨hk, ?_, sums k hk⟩
  rw [key k hk] at h
  injection h with h
  exact h.symm

theorem yearDelta_step (y : Nat) : yearDelta (y + 1) - yearDelta y =
    if y % 4 = 0 ∧ (y % 100 ≠ 0 ∨ y % 400 = 0) then 1 else 0 := by
  unfold yearDelta
  split <;> omega

theorem daysTo_cycle (q : Int) (y : Nat) : daysTo (q * 400 + y) = q * 146097 + 365 * y + yearDelta y - 719528 := by
  unfold daysTo yearDelta
  dsimp only
  omega

theorem civil_isDate (day : Int) : IsDate day (civil day).1 (civil day).2.1 (civil day).2.2 := by
  unfold civil
  dsimp only
  have hc : ((day + 719528) % 146097).toNat < 146097 := by omega
  have hcyc : day + 719528 = (day + 719528) / 146097 * 146097 + ((day + 719528) % 146097).toNat := by omega
  generalize ((day + 719528) % 146097).toNat = c at *
  generalize (day + 719528) / 146097 = q at *
  obtain ⟨h1, h2, h3⟩ := cycleToYo_spec c hc
  generalize cycleToYo c = yo at *
  obtain ⟨y, o⟩ := yo
  dsimp only at *
  rw [yearDelta_step] at h3
  have hleap : decide (y % 4 = 0 ∧ (y % 100 ≠ 0 ∨ y % 400 = 0)) = true ↔ Leap (q * 400 + y) := by
    rw [decide_eq_true_eq]
    unfold Leap
    omega
  have ho : o < (monthLengths (decide (y % 4 = 0 ∧ (y % 100 ≠ 0 ∨ y % 400 = 0)))).sum := by
    rw [lengths_sum]
    by_cases hl : y % 4 = 0 ∧ (y % 100 ≠ 0 ∨ y % 400 = 0)
    · rw [if_pos hl] at h3
      rw [if_pos (by simpa using hl)]
      omega
    · rw [if_neg hl] at h3
      rw [if_neg (by simpa using hl)]
      omega
  obtain ⟨k, k1, k2, len, k3, k4⟩ := monthDay_bound _ 1 o ho
  obtain ⟨m1, m2, m3⟩ := month_lookup _ _ hleap k len k3
  obtain ⟨s1, s2⟩ := monthDay_spec (monthLengths (decide (y % 4 = 0 ∧ (y % 100 ≠ 0 ∨ y % 400 = 0)))) 1 o
  rw [k1, show 1 + k - 1 = k by omega, m3] at s2
  rw [k1]
  rw [show 1 + k = k + 1 by omega]
  refine ⟨by omega, ⟨k2, by omega⟩, ?_⟩
  rw [daysTo_cycle]
  omega

/-! ### Digits -/

theorem digitsOf_zero : ∀ w, digitsOf w 0 = List.replicate w 0x30
  | 0 => rfl
  | w + 1 => by
    rw [digitsOf, Nat.zero_div, digitsOf_zero w, List.replicate_succ']
    rfl

theorem decPad_digitsOf : ∀ (w n : Nat), n < 10 ^ (w + 1) → decPad (w + 1) n = digitsOf (w + 1) n
  | w, n, h => by
    unfold decPad
    rw [decNat_eq, showNat]
    by_cases hn : n < 10
    · rw [dif_pos hn, digitsOf, Nat.div_eq_of_lt hn, digitsOf_zero, Nat.mod_eq_of_lt hn]
      simp
    · rw [dif_neg hn]
      cases w with
      | zero => simp at h; omega
      | succ w =>
        have ih := decPad_digitsOf w (n / 10) (by rw [Nat.pow_succ] at h; omega)
        unfold decPad at ih
        rw [decNat_eq] at ih
        rw [digitsOf, ← ih]
        simp

theorem yearText_eq (y : Int) : yearText y = showYear y := by
  unfold yearText showYear
  by_cases h : 0 ≤ y ∧ y ≤ 9999
  · rw [if_pos h, if_pos (by omega), decPad_digitsOf 3 _ (by show _ < 10000; omega)]
  · have h' : ¬ (0 ≤ y ∧ y < 10000) := by omega
    rw [if_neg h, if_neg h']
    have e : decPad 4 y.natAbs = if y.natAbs < 10000 then digitsOf 4 y.natAbs else showNat y.natAbs := by
      split
      · exact decPad_digitsOf 3 _ (by show _ < 10000; omega)
      · rename_i hb
        unfold decPad
        rw [decNat_eq]
        have hlen : 4 ≤ (showNat y.natAbs).length := by
          have key : ∀ n, 1000 ≤ n → 4 ≤ (showNat n).length := by
            intro n hn
            rw [showNat, dif_neg (by omega), showNat, dif_neg (by omega), showNat, dif_neg (by omega)]
            have : 1 ≤ (showNat (n / 10 / 10 / 10)).length :=
              List.length_pos_iff.2 (showNat_spec _).1.1
            simp
            omega
          exact key _ (by omega)
        rw [show 4 - (showNat y.natAbs).length = 0 by omega]
        rfl
    rw [e]
    split <;> rfl

theorem fractionText_eq {n : Nat} (h : n < 1000000000) : fractionText n = showFraction n := by
  unfold fractionText showFraction
  rw [decPad_digitsOf 2 (n / 1000000) (by show _ < 1000; omega), decPad_digitsOf 5 (n / 1000) (by show _ < 1000000; omega),
    decPad_digitsOf 8 n h]

theorem timestampText_shows (t : Timestamp) : ShowsTime t (timestampText t) := by
  unfold timestampText
  dsimp only
  have hd := civil_isDate (t.secs / 86400)
  generalize civil (t.secs / 86400) = ymd at *
  obtain ⟨y, m, d⟩ := ymd
  dsimp only at *
  have hm : (t.secs % 86400).toNat < 86400 := by omega
  have ht : t.secs = t.secs / 86400 * 86400 + (t.secs % 86400).toNat := by omega
  have hdom : d ≤ 31 := by
    have := hd.inMonth.2
    unfold daysIn at this
    repeat' split at this
    all_goals omega
  have hmon := hd.inYear
  have hl : t.nanos ≥ 1000000000 → (t.secs % 86400).toNat % 60 = 59 ∧ t.nanos < 2000000000 := by
    have := t.valid
    omega
  generalize (t.secs % 86400).toNat = s at *
  rw [yearText_eq, decPad_digitsOf 1 m (by show _ < 100; omega), decPad_digitsOf 1 d (by show _ < 100; omega),
    decPad_digitsOf 1 (s / 3600) (by show _ < 100; omega), decPad_digitsOf 1 (s / 60 % 60) (by show _ < 100; omega)]
  by_cases hn : t.nanos ≥ 1000000000
  · obtain ⟨h1, h2⟩ := hl hn
    rw [if_pos hn, h1]
    dsimp only
    rw [decPad_digitsOf 1 (59 + 1) (by decide), fractionText_eq (by omega)]
    exact ShowsTime.leap (t.secs / 86400) y m d (s / 3600) (s / 60 % 60) (t.nanos - 1000000000) hd
      (by omega) (by omega) (by omega) (by omega) (by omega)
  · rw [if_neg hn]
    dsimp only
    rw [decPad_digitsOf 1 (s % 60) (by show _ < 100; omega), fractionText_eq (by omega)]
    exact ShowsTime.mk (t.secs / 86400) y m d (s / 3600) (s / 60 % 60) (s % 60) hd
      (by omega) (by omega) (by omega) (by omega) (by omega)

/-! ### The specification is functional -/

theorem daysBefore_mono (y : Int) : ∀ m k, daysBefore y (m + 1) + (if k = 0 then 0 else daysIn y (m + 1)) ≤ daysBefore y (m + 1 + k)
  | m, 0 => by simp
  | m, k + 1 => by
    have := daysBefore_mono y m k
    rw [if_neg (by omega), show m + 1 + (k + 1) = (m + k) + 2 by omega, daysBefore, show m + k + 1 = m + 1 + k by omega]
    by_cases hk : k = 0
    · subst hk; simp
    · rw [if_neg hk] at this
      omega

theorem daysTo_step (y : Int) : daysTo (y + 1) = daysTo y + if Leap y then 366 else 365 := by
  unfold daysTo
  by_cases h : Leap y
  · rw [if_pos h]
    unfold Leap at h
    dsimp only
    omega
  · rw [if_neg h]
    unfold Leap at h
    dsimp only
    omega

theorem daysBefore_year (y : Int) : daysBefore y 12 + daysIn y 12 = if Leap y then 366 else 365 := by
  by_cases h : Leap y <;> simp [daysBefore, daysIn, h]

theorem daysTo_mono (y : Int) : ∀ k : Nat, daysTo y ≤ daysTo (y + k)
  | 0 => by simp
  | k + 1 => by
    have h := daysTo_mono y k
    have h' := daysTo_step (y + k)
    have : (if Leap (y + k) then (366 : Int) else 365) ≥ 0 := by split <;> omega
    rw [show y + ((k + 1 : Nat) : Int) = y + k + 1 by omega]
    omega

theorem date_in_year {day y : Int} {m d : Nat} (h : IsDate day y m d) : daysTo y ≤ day ∧ day < daysTo (y + 1) := by
  obtain ⟨⟨h1, h2⟩, ⟨h3, h4⟩, h5⟩ := h
  refine ⟨by omega, ?_⟩
  rw [daysTo_step, ]
  have hy := daysBefore_year y
  have : daysBefore y m + daysIn y m ≤ daysBefore y 12 + daysIn y 12 := by
    obtain ⟨m, rfl⟩ : ∃ j, m = j + 1 := ⟨m - 1, by omega⟩
    have := daysBefore_mono y m (11 - m)
    rw [show m + 1 + (11 - m) = 12 by omega] at this
    by_cases hm : m = 11
    · subst hm; exact Nat.le_refl _
    · rw [if_neg (by omega)] at this; omega
  have e : ((if Leap y then 366 else 365 : Nat) : Int) = if Leap y then (366 : Int) else 365 := by split <;> rfl
  rw [← e, ← hy]
  omega

theorem date_unique {day y y' : Int} {m m' d d' : Nat} (h : IsDate day y m d) (h' : IsDate day y' m' d') :
    y = y' ∧ m = m' ∧ d = d' := by
  obtain ⟨a1, a2⟩ := date_in_year h
  obtain ⟨b1, b2⟩ := date_in_year h'
  have hy : y = y' := by
    by_cases h1 : y < y'
    · have := daysTo_mono (y + 1) (y' - (y + 1)).toNat
      rw [show y + 1 + ((y' - (y + 1)).toNat : Int) = y' by omega] at this
      omega
    · by_cases h2 : y' < y
      · have := daysTo_mono (y' + 1) (y - (y' + 1)).toNat
        rw [show y' + 1 + ((y - (y' + 1)).toNat : Int) = y by omega] at this
        omega
      · omega
  subst hy
  obtain ⟨⟨h1, h2⟩, ⟨h3, h4⟩, h5⟩ := h
  obtain ⟨⟨g1, g2⟩, ⟨g3, g4⟩, g5⟩ := h'
  have key : ∀ m m' : Nat, 1 ≤ m → m < m' → daysBefore y m + daysIn y m ≤ daysBefore y m' := by
    intro m m' hm hlt
    obtain ⟨j, rfl⟩ : ∃ j, m = j + 1 := ⟨m - 1, by omega⟩
    have := daysBefore_mono y j (m' - (j + 1))
    rw [show j + 1 + (m' - (j + 1)) = m' by omega, if_neg (by omega)] at this
    exact this
  have hmm : m = m' := by
    rcases Nat.lt_trichotomy m m' with hl | hl | hl
    · have := key m m' h1 hl; omega
    · exact hl
    · have := key m' m g1 hl; omega
  subst hmm
  exact ⟨rfl, rfl, by omega⟩

end Tmi.Proofs
