/-
Numbers, durations and dates can be read back from what `Debug` prints of them.
-/
import Verif.Proofs.Debug
import Verif.Spec.Num

namespace Tmi.Proofs
open Model Spec

/-! ### Digits -/

def isDigitB (x : UInt8) : Bool := 0x30 ≤ x && x ≤ 0x39

theorem decNat_digits (n : Nat) : ∀ x ∈ decNat n, isDigitB x = true := by
  intro x hx
  rw [decNat_eq] at hx
  have := (showNat_spec n).1.2 x hx
  simp [isDigitB, this.1, this.2]

theorem decNat_ne_nil (n : Nat) : decNat n ≠ [] := by
  rw [decNat_eq]
  exact (showNat_spec n).1.1

theorem decPad_digits (w n : Nat) : ∀ x ∈ decPad w n, isDigitB x = true := by
  intro x hx
  unfold decPad at hx
  rw [List.mem_append] at hx
  rcases hx with hx | hx
  · rw [(List.mem_replicate.1 hx).2]; decide
  · exact decNat_digits n x hx

theorem decimal_zeros (k : Nat) (s : Bytes) : decimal (List.replicate k 0x30 ++ s) = decimal s := by
  induction k with
  | zero => rfl
  | succ k ih =>
    rw [List.replicate_succ, List.cons_append]
    unfold decimal at ih ⊢
    rw [List.foldl_cons]
    exact ih

theorem decimal_decPad (w n : Nat) : decimal (decPad w n) = n := by
  unfold decPad
  rw [decimal_zeros, decNat_eq]
  exact (showNat_spec n).2

theorem decPad_inj {w a b : Nat} (h : decPad w a = decPad w b) : a = b := by
  rw [← decimal_decPad w a, h, decimal_decPad]

/-- Digits followed by something else. -/
theorem digits_inj {w w' r r' : Bytes} (h : ∀ x ∈ w, isDigitB x = true) (h' : ∀ x ∈ w', isDigitB x = true)
    {c d : UInt8} (hc : isDigitB c = false) (hd : isDigitB d = false) (e : w ++ c :: r = w' ++ d :: r') :
    w = w' ∧ c = d ∧ r = r' := by
  obtain ⟨e1, e2⟩ := span_eq isDigitB _ _ _ _ h h' (by simp [hc]) (by simp [hd]) e
  exact ⟨e1, (List.cons.inj e2).1, (List.cons.inj e2).2⟩

theorem decPad_sep {k a b : Nat} {r r' : Bytes} {c d : UInt8} (hc : isDigitB c = false) (hd : isDigitB d = false)
    (e : decPad k a ++ c :: r = decPad k b ++ d :: r') : a = b ∧ c = d ∧ r = r' := by
  obtain ⟨e1, e2, e3⟩ := digits_inj (decPad_digits k a) (decPad_digits k b) hc hd e
  exact ⟨decPad_inj e1, e2, e3⟩

theorem decInt_inj {a b : Int} (h : decInt a = decInt b) : a = b := by
  unfold decInt at h
  have hm : ∀ n : Nat, ∀ t, decNat n ≠ 0x2D :: t := by
    intro n t e
    have := decNat_digits n 0x2D (by rw [e]; simp)
    exact absurd this (by decide)
  by_cases ha : a < 0 <;> by_cases hb : b < 0
  · rw [if_pos ha, if_pos hb] at h
    have := decNat_inj (List.cons.inj h).2
    omega
  · rw [if_pos ha, if_neg hb] at h
    exact absurd h.symm (hm _ _)
  · rw [if_neg ha, if_pos hb] at h
    exact absurd h (hm _ _)
  · rw [if_neg ha, if_neg hb] at h
    have := decNat_inj h
    omega

/-! ### Durations -/

theorem fracDigits_digits : ∀ (w n : Nat), n < 10 ^ w → ∀ x ∈ fracDigits w n, isDigitB x = true
  | 0, _, _, x, hx => by simp [fracDigits] at hx
  | w + 1, n, h, x, hx => by
    rw [fracDigits] at hx
    split at hx
    · simp at hx
    · rcases List.mem_cons.1 hx with rfl | hx
      · have hd : n / 10 ^ w < 10 := Nat.div_lt_of_lt_mul (by rw [Nat.pow_succ] at h; exact h)
        have key : ∀ d : Fin 10, isDigitB (UInt8.ofNat (48 + d.1)) = true := by decide +kernel
        exact key ⟨_, hd⟩
      · exact fracDigits_digits w _ (Nat.mod_lt _ (Nat.pow_pos (by omega))) x hx

theorem fracDigits_inj : ∀ (w n n' : Nat), n < 10 ^ w → n' < 10 ^ w → fracDigits w n = fracDigits w n' → n = n'
  | 0, n, n', h, h', _ => by simp at h h'; omega
  | w + 1, n, n', h, h', e => by
    rw [fracDigits, fracDigits] at e
    by_cases h0 : n = 0 <;> by_cases h0' : n' = 0
    · omega
    · rw [if_pos h0, if_neg h0'] at e; simp at e
    · rw [if_neg h0, if_pos h0'] at e; simp at e
    · rw [if_neg h0, if_neg h0'] at e
      obtain ⟨e1, e2⟩ := List.cons.inj e
      have ih := fracDigits_inj w _ _ (Nat.mod_lt _ (Nat.pow_pos (by omega))) (Nat.mod_lt _ (Nat.pow_pos (by omega))) e2
      have hd : n / 10 ^ w < 10 := Nat.div_lt_of_lt_mul (by rw [Nat.pow_succ] at h; exact h)
      have hd' : n' / 10 ^ w < 10 := Nat.div_lt_of_lt_mul (by rw [Nat.pow_succ] at h'; exact h')
      have key : ∀ d d' : Fin 10, UInt8.ofNat (48 + d.1) = UInt8.ofNat (48 + d'.1) → d.1 = d'.1 := by decide +kernel
      have ed := key ⟨_, hd⟩ ⟨_, hd'⟩ e1
      dsimp only at ed
      rw [← Nat.div_add_mod n (10 ^ w), ← Nat.div_add_mod n' (10 ^ w), ed, ih]

theorem fmtDecimal_inj {i f w i' f' w' : Nat} {u u' : UInt8} {us us' : Bytes} (hu : isDigitB u = false) (hd : u ≠ 0x2E)
    (hu' : isDigitB u' = false) (hd' : u' ≠ 0x2E) (hf : f < 10 ^ w) (hf' : f' < 10 ^ w')
    (e : fmtDecimal i f w (u :: us) = fmtDecimal i' f' w' (u' :: us')) :
    i = i' ∧ u = u' ∧ (f = 0 ↔ f' = 0) ∧ (f ≠ 0 → fracDigits w f = fracDigits w' f') := by
  unfold fmtDecimal at e
  rw [List.append_assoc, List.append_assoc] at e
  by_cases h0 : f = 0 <;> by_cases h0' : f' = 0
  · rw [if_pos h0, if_pos h0'] at e
    obtain ⟨e1, e2, _⟩ := digits_inj (decNat_digits i) (decNat_digits i') hu hu' e
    exact ⟨decNat_inj e1, e2, by simp [h0, h0'], by simp [h0]⟩
  · rw [if_pos h0, if_neg h0'] at e
    obtain ⟨_, e2, _⟩ := digits_inj (decNat_digits i) (decNat_digits i') hu (by decide) e
    exact absurd e2 hd
  · rw [if_neg h0, if_pos h0'] at e
    obtain ⟨_, e2, _⟩ := digits_inj (decNat_digits i) (decNat_digits i') (by decide) hu' e
    exact absurd e2.symm hd'
  · rw [if_neg h0, if_neg h0'] at e
    obtain ⟨e1, _, e3⟩ := digits_inj (decNat_digits i) (decNat_digits i') (by decide) (by decide) e
    obtain ⟨e4, e5, _⟩ := digits_inj (fracDigits_digits w f hf) (fracDigits_digits w' f' hf') hu hu' e3
    exact ⟨decNat_inj e1, e5, by simp [h0, h0'], fun _ => e4⟩

/-- The ways a duration is printed. -/
inductive Printed (n : Nat) : Nat → Nat → Nat → UInt8 → Bytes → Prop
  | s : Printed n (n / 1000000000) (n % 1000000000) 9 0x73 []
  | ms (h : n < 1000000000) : Printed n (n / 1000000) (n % 1000000) 6 0x6D (b!"s")
  | us (h : n < 1000000) : Printed n (n / 1000) (n % 1000) 3 0xC2 [0xB5, 0x73]
  | ns (h : n < 1000) : Printed n n 0 1 0x6E (b!"s")

theorem durationText_printed (n : Nat) :
    ∃ i f w u us, Printed n i f w u us ∧ durationText n = fmtDecimal i f w (u :: us) := by
  unfold durationText
  dsimp only
  by_cases h : n / 1000000000 > 0
  · exact ⟨_, _, _, _, _, .s, by rw [if_pos h]⟩
  · have e : n % 1000000000 = n := by omega
    rw [if_neg h, e]
    by_cases h1 : n ≥ 1000000
    · exact ⟨_, _, _, _, _, .ms (by omega), by rw [if_pos h1]⟩
    · rw [if_neg h1]
      by_cases h2 : n ≥ 1000
      · exact ⟨_, _, _, _, _, .us (by omega), by rw [if_pos h2]⟩
      · exact ⟨_, _, _, _, _, .ns (by omega), by rw [if_neg h2]⟩

theorem Printed.frac {n i f w : Nat} {u : UInt8} {us : Bytes} (h : Printed n i f w u us) : f < 10 ^ w := by
  cases h with
  | s => show _ < 1000000000; omega
  | ms h => show _ < 1000000; omega
  | us h => show _ < 1000; omega
  | ns h => show _ < 10; omega

theorem Printed.unit {n i f w : Nat} {u : UInt8} {us : Bytes} (h : Printed n i f w u us) :
    isDigitB u = false ∧ u ≠ 0x2E := by
  cases h <;> decide

theorem duration_inj {a b : Nat} (e : durationText a = durationText b) : a = b := by
  obtain ⟨i, f, w, u, us, P, h⟩ := durationText_printed a
  obtain ⟨i', f', w', u', us', P', h'⟩ := durationText_printed b
  rw [h, h'] at e
  obtain ⟨e1, e2, e3, e4⟩ := fmtDecimal_inj P.unit.1 P.unit.2 P'.unit.1 P'.unit.2 P.frac P'.frac e
  have hf := P.frac
  have hf' := P'.frac
  have key : w = w' → f = f' := by
    intro hw
    subst hw
    by_cases h0 : f = 0
    · rw [h0, e3.1 h0]
    · exact fracDigits_inj w f f' hf hf' (e4 h0)
  cases P <;> cases P' <;> first
    | exact absurd e2 (by decide)
    | (have := key rfl; omega)

/-! ### Dates -/

theorem yearDelta_le {y : Nat} (h : y ≤ 400) : yearDelta y ≤ 97 := by
  unfold yearDelta
  omega

theorem cycleToYo_spec (c : Nat) (h : c < 146097) :
    (cycleToYo c).1 < 400 ∧ c = 365 * (cycleToYo c).1 + yearDelta (cycleToYo c).1 + (cycleToYo c).2 ∧
    (cycleToYo c).2 < 365 + (yearDelta ((cycleToYo c).1 + 1) - yearDelta (cycleToYo c).1) := by
  unfold cycleToYo
  dsimp only
  have hy : c / 365 ≤ 400 := by omega
  split
  · rename_i ho
    have hne : c / 365 ≠ 0 := by
      intro h0
      rw [h0] at ho
      exact absurd ho (Nat.not_lt_zero _)
    have hd := yearDelta_le (y := c / 365 - 1) (by omega)
    have e : c / 365 - 1 + 1 = c / 365 := by omega
    refine ⟨by dsimp only; omega, by dsimp only; omega, ?_⟩
    dsimp only
    rw [e]
    have : yearDelta (c / 365 - 1) ≤ yearDelta (c / 365) := by unfold yearDelta; omega
    omega
  · rename_i ho
    have h400 : c / 365 ≠ 400 := by
      intro h0
      rw [h0] at ho
      have : yearDelta 400 = 97 := by decide
      omega
    refine ⟨by dsimp only; omega, by dsimp only; omega, ?_⟩
    dsimp only
    have : yearDelta (c / 365) ≤ yearDelta (c / 365 + 1) := by unfold yearDelta; omega
    omega

theorem monthDay_spec : ∀ (ls : List Nat) (m o : Nat), m ≤ (monthDay m o ls).1 ∧
    o + 1 = (ls.take ((monthDay m o ls).1 - m)).sum + (monthDay m o ls).2
  | [], m, o => by simp [monthDay]
  | len :: rest, m, o => by
    unfold monthDay
    by_cases h : o < len
    · rw [if_pos h]
      simp
    · rw [if_neg h]
      obtain ⟨h1, h2⟩ := monthDay_spec rest (m + 1) (o - len)
      refine ⟨by omega, ?_⟩
      obtain ⟨k, hk⟩ : ∃ k, (monthDay (m + 1) (o - len) rest).1 = m + 1 + k := ⟨_, (Nat.add_sub_cancel' h1).symm⟩
      rw [hk] at h2 ⊢
      rw [show m + 1 + k - m = k + 1 by omega, List.take_succ_cons, List.sum_cons]
      rw [show m + 1 + k - (m + 1) = k by omega] at h2
      omega

theorem civil_inj {a b : Int} (h : civil a = civil b) : a = b := by
  unfold civil at h
  simp only [Prod.mk.injEq] at h
  obtain ⟨h1, h2, h3⟩ := h
  have ha : ((a + 719528) % 146097).toNat < 146097 := by omega
  have hb : ((b + 719528) % 146097).toNat < 146097 := by omega
  obtain ⟨a1, a2, _⟩ := cycleToYo_spec _ ha
  obtain ⟨b1, b2, _⟩ := cycleToYo_spec _ hb
  generalize cycleToYo ((a + 719528) % 146097).toNat = ca at *
  generalize cycleToYo ((b + 719528) % 146097).toNat = cb at *
  obtain ⟨ya, oa⟩ := ca
  obtain ⟨yb, ob⟩ := cb
  dsimp only at *
  have hq : (a + 719528) / 146097 = (b + 719528) / 146097 ∧ ya = yb := by omega
  obtain ⟨hq, rfl⟩ := hq
  have sa := (monthDay_spec (monthLengths (decide (ya % 4 = 0 ∧ (ya % 100 ≠ 0 ∨ ya % 400 = 0)))) 1 oa).2
  have sb := (monthDay_spec (monthLengths (decide (ya % 4 = 0 ∧ (ya % 100 ≠ 0 ∨ ya % 400 = 0)))) 1 ob).2
  rw [h2, h3] at sa
  have : oa = ob := by omega
  subst this
  omega

theorem yearText_sep {y y' : Int} {r r' : Bytes} (e : yearText y ++ 0x2D :: r = yearText y' ++ 0x2D :: r') :
    y = y' ∧ r = r' := by
  unfold yearText at e
  have hn : ∀ n : Nat, ∀ c : UInt8, ∀ u v : Bytes, isDigitB c = false → decPad 4 n ++ u ≠ c :: v := by
    intro n c u v hc e
    have hne : decPad 4 n ≠ [] := by
      unfold decPad
      simp [decNat_ne_nil]
    cases hd : decPad 4 n with
    | nil => exact hne hd
    | cons a t =>
      have := decPad_digits 4 n a (by rw [hd]; simp)
      rw [hd] at e
      rw [(List.cons.inj e).1, hc] at this
      exact absurd this (by decide)
  by_cases h : 0 ≤ y ∧ y ≤ 9999 <;> by_cases h' : 0 ≤ y' ∧ y' ≤ 9999
  · rw [if_pos h, if_pos h'] at e
    obtain ⟨e1, _, e3⟩ := decPad_sep (by decide) (by decide) e
    exact ⟨by omega, e3⟩
  · rw [if_pos h, if_neg h'] at e
    exact absurd e (hn _ _ _ _ (by split <;> decide))
  · rw [if_neg h, if_pos h'] at e
    exact absurd e.symm (hn _ _ _ _ (by split <;> decide))
  · rw [if_neg h, if_neg h'] at e
    rw [List.cons_append, List.cons_append, List.cons.injEq] at e
    obtain ⟨e1, _, e3⟩ := decPad_sep (by decide) (by decide) e.2
    have e0 := e.1
    by_cases hy : y < 0 <;> by_cases hy' : y' < 0
    · exact ⟨by omega, e3⟩
    · rw [if_pos hy, if_neg hy'] at e0; exact absurd e0 (by decide)
    · rw [if_neg hy, if_pos hy'] at e0; exact absurd e0 (by decide)
    · exact ⟨by omega, e3⟩

theorem decPad_length {w n : Nat} (h : n < 10 ^ w) (hw : 0 < w) : (decPad w n).length = w := by
  have key : ∀ w n : Nat, n < 10 ^ (w + 1) → (decNat n).length ≤ w + 1 := by
    intro w
    induction w with
    | zero =>
      intro n h
      rw [decNat_eq, showNat, dif_pos (by omega)]
      simp
    | succ w ih =>
      intro n h
      rw [decNat_eq, showNat]
      split
      · simp
      · have := ih (n / 10) (by rw [Nat.pow_succ] at h; omega)
        rw [decNat_eq] at this
        simp
        omega
  obtain ⟨w, rfl⟩ : ∃ k, w = k + 1 := ⟨w - 1, by omega⟩
  unfold decPad
  have := key w n h
  rw [List.length_append, List.length_replicate]
  omega

/-- Fractions which are followed by the same thing. -/
theorem fractionText_inj {a b : Nat} (ha : a < 1000000000) (hb : b < 1000000000) {r : Bytes}
    (h : fractionText a ++ 0x5A :: r = fractionText b ++ 0x5A :: r) : a = b := by
  have form : ∀ n, n < 1000000000 → n ≠ 0 → ∃ w k, 0 < w ∧ k < 10 ^ w ∧ fractionText n = 0x2E :: decPad w k ∧
      ((w = 3 ∧ n = k * 1000000) ∨ (w = 6 ∧ n = k * 1000) ∨ (w = 9 ∧ n = k)) := by
    intro n hn h0
    unfold fractionText
    rw [if_neg h0]
    by_cases h1 : n % 1000000 = 0
    · rw [if_pos h1]
      exact ⟨3, n / 1000000, by decide, by show _ < 1000; omega, rfl, .inl ⟨rfl, by omega⟩⟩
    · rw [if_neg h1]
      by_cases h2 : n % 1000 = 0
      · rw [if_pos h2]
        exact ⟨6, n / 1000, by decide, by show _ < 1000000; omega, rfl, .inr (.inl ⟨rfl, by omega⟩)⟩
      · rw [if_neg h2]
        exact ⟨9, n, by decide, hn, rfl, .inr (.inr ⟨rfl, rfl⟩)⟩
  have zero : fractionText 0 = [] := rfl
  by_cases h0 : a = 0 <;> by_cases h0' : b = 0
  · omega
  · obtain ⟨w, k, _, _, e, _⟩ := form b hb h0'
    rw [h0, zero, e] at h
    exact absurd (List.cons.inj h).1 (by decide)
  · obtain ⟨w, k, _, _, e, _⟩ := form a ha h0
    rw [h0', zero, e] at h
    exact absurd (List.cons.inj h).1 (by decide)
  · obtain ⟨w, k, hw, hk, e, f⟩ := form a ha h0
    obtain ⟨w', k', hw', hk', e', f'⟩ := form b hb h0'
    rw [e, e', List.cons_append, List.cons_append] at h
    obtain ⟨e1, _, _⟩ := digits_inj (decPad_digits _ _) (decPad_digits _ _) (by decide) (by decide) (List.cons.inj h).2
    have hl := congrArg List.length e1
    rw [decPad_length hk hw, decPad_length hk' hw'] at hl
    subst hl
    have := decPad_inj e1
    omega

theorem timestampText_inj {a b : Timestamp} (h : timestampText a = timestampText b) : a = b := by
  unfold timestampText at h
  dsimp only at h
  simp only [List.append_assoc, List.cons_append, List.nil_append] at h
  obtain ⟨e1, h⟩ := yearText_sep h
  obtain ⟨e2, _, h⟩ := decPad_sep (by decide) (by decide) h
  obtain ⟨e3, _, h⟩ := decPad_sep (by decide) (by decide) h
  obtain ⟨e4, _, h⟩ := decPad_sep (by decide) (by decide) h
  obtain ⟨e5, _, h⟩ := decPad_sep (by decide) (by decide) h
  have hc : civil (a.secs / 86400) = civil (b.secs / 86400) := Prod.ext e1 (Prod.ext e2 e3)
  have hd := civil_inj hc
  clear hc e1 e2 e3
  have sep : ∀ (s s' n n' : Nat), n < 1000000000 → n' < 1000000000 →
      decPad 2 s ++ (fractionText n ++ [0x5A]) = decPad 2 s' ++ (fractionText n' ++ [0x5A]) → s = s' ∧ n = n' := by
    intro s s' n n' hn hn' e
    have start : ∀ k, ∃ c r, fractionText k ++ [0x5A] = c :: r ∧ isDigitB c = false := by
      intro k
      unfold fractionText
      repeat' split
      all_goals exact ⟨_, _, rfl, by decide⟩
    obtain ⟨c, r, h1, h2⟩ := start n
    obtain ⟨c', r', h1', h2'⟩ := start n'
    have e' := e
    rw [h1, h1'] at e'
    obtain ⟨rfl, rfl, rfl⟩ := decPad_sep h2 h2' e'
    exact ⟨rfl, fractionText_inj hn hn' (h1.trans h1'.symm)⟩
  have va := a.valid
  have vb := b.valid
  have fin : a.secs % 86400 = b.secs % 86400 ∧ a.nanos = b.nanos := by
    by_cases ha : a.nanos ≥ 1000000000 <;> by_cases hb : b.nanos ≥ 1000000000
    · rw [if_pos ha, if_pos hb] at h
      obtain ⟨e6, e7⟩ := sep _ _ _ _ (by dsimp only; omega) (by dsimp only; omega) h
      dsimp only at e6 e7
      omega
    · rw [if_pos ha, if_neg hb] at h
      obtain ⟨e6, e7⟩ := sep _ _ _ _ (by dsimp only; omega) (by dsimp only; omega) h
      dsimp only at e6 e7
      omega
    · rw [if_neg ha, if_pos hb] at h
      obtain ⟨e6, e7⟩ := sep _ _ _ _ (by dsimp only; omega) (by dsimp only; omega) h
      dsimp only at e6 e7
      omega
    · rw [if_neg ha, if_neg hb] at h
      obtain ⟨e6, e7⟩ := sep _ _ _ _ (by dsimp only; omega) (by dsimp only; omega) h
      dsimp only at e6 e7
      omega
  obtain ⟨f1, f2⟩ := fin
  have f3 : a.secs = b.secs := by omega
  cases a
  cases b
  rw [Timestamp.mk.injEq]
  exact ⟨f3, f2⟩

end Tmi.Proofs
