/-
The text of a point in time is read back as the same point in time.
-/
import Verif.Model.Chrono
import Verif.Proofs.DebugDate
import Verif.Spec.Shape

namespace Tmi.Proofs.Chrono
open Model Spec Model.Chrono

theorem takeWhile_app (p : UInt8 → Bool) : ∀ (ds r : Bytes), (∀ x ∈ ds, p x = true) → (∀ x ∈ r.head?, p x = false) →
    (ds ++ r).takeWhile p = ds
  | [], [], _, _ => rfl
  | [], c :: r, _, hc => by simp [List.takeWhile, hc c (by simp)]
  | x :: ds, r, h, hc => by
    simp [List.takeWhile, h x (by simp), takeWhile_app p ds r (fun y hy => h y (by simp [hy])) hc]

theorem number_app {min max n : Nat} {ds : Bytes} {c : UInt8} {r : Bytes} (h : ∀ x ∈ ds, isDigitB x = true)
    (hc : isDigitB c = false) (h1 : min ≤ ds.length) (h2 : ds.length ≤ max) (hn : decimal ds = n) (hb : n < 2 ^ 63) :
    number min max (ds ++ c :: r) = some (n, c :: r) := by
  have ht : ((ds ++ c :: r).take max).takeWhile Chrono.isDigit = ds := by
    rw [List.take_append, List.take_of_length_le h2]
    refine takeWhile_app _ _ _ h ?_
    intro x hx
    cases hk : max - ds.length with
    | zero => rw [hk] at hx; simp at hx
    | succ k => rw [hk] at hx; simp at hx; subst hx; exact hc
  unfold number
  dsimp only
  rw [ht, if_neg (by
    rintro (e | e)
    · omega
    · have : Chrono.value ds = n := hn
      omega)]
  rw [List.drop_left]
  have : Chrono.value ds = n := hn
  rw [this]

theorem number_pad {n : Nat} {c : UInt8} {r : Bytes} (hc : isDigitB c = false) (h : n < 100) :
    number 1 2 (decPad 2 n ++ c :: r) = some (n, c :: r) := by
  have hl := decPad_length (w := 2) (n := n) h (by omega)
  exact number_app (decPad_digits 2 n) hc (by omega) (by omega) (decimal_decPad 2 n) (by omega)

theorem decPad4_length (n : Nat) : 4 ≤ (decPad 4 n).length := by
  unfold decPad
  simp
  omega

theorem year_app {y : Int} {c : UInt8} {r : Bytes} (hc : isDigitB c = false) (hy : y.natAbs < 2 ^ 63) :
    Chrono.year (yearText y ++ c :: r) = some (y, c :: r) := by
  unfold yearText
  have hl := decPad4_length
  by_cases h : 0 ≤ y ∧ y ≤ 9999
  · rw [if_pos h]
    have hlen := decPad_length (w := 4) (n := y.toNat) (by show _ < 10000; omega) (by omega)
    have hd := decPad_digits 4 y.toNat
    have hn := number_app (min := 1) (max := 4) (r := r) hd hc (by omega) (by omega) (decimal_decPad 4 y.toNat) (by omega)
    have : ∃ x xs, decPad 4 y.toNat = x :: xs := by
      cases e : decPad 4 y.toNat with
      | nil => rw [e] at hlen; simp at hlen
      | cons x xs => exact ⟨x, xs, rfl⟩
    obtain ⟨x, xs, e⟩ := this
    rw [e] at hn hd ⊢
    have hx := hd x (by simp)
    rw [List.cons_append] at hn ⊢
    unfold Chrono.year
    split
    · rename_i e; injection e with e; subst e; simp [isDigitB] at hx
    · rename_i e; injection e with e; subst e; simp [isDigitB] at hx
    · rw [hn]; simp; omega
  · rw [if_neg h]
    have hn := number_app (min := 1) (max := (decPad 4 y.natAbs ++ c :: r).length) (r := r) (decPad_digits 4 y.natAbs) hc
      (by have := hl y.natAbs; omega) (by simp) (decimal_decPad 4 y.natAbs) hy
    by_cases h0 : y < 0
    · rw [if_pos h0, List.cons_append]
      simp only [Chrono.year, hn, Option.map_some]
      congr 2
      omega
    · rw [if_neg h0, List.cons_append]
      simp only [Chrono.year, hn, Option.map_some]
      congr 2
      omega

theorem fraction_pad {w n : Nat} {c : UInt8} {r : Bytes} (hc : isDigitB c = false) (h : n < 10 ^ w) (h0 : 0 < w)
    (h9 : w ≤ 9) : Chrono.fraction (0x2E :: (decPad w n ++ c :: r)) = some (n * 10 ^ (9 - w), c :: r) := by
  have hl := decPad_length h h0
  have ht : (decPad w n ++ c :: r).takeWhile Chrono.isDigit = decPad w n :=
    takeWhile_app _ _ _ (decPad_digits w n) (by intro x hx; simp at hx; subst hx; exact hc)
  simp only [Chrono.fraction]
  rw [ht, if_neg (by intro e; rw [e] at hl; simp at hl; omega), List.take_of_length_le (by omega),
    List.drop_left]
  have : Chrono.value (decPad w n) = n := decimal_decPad w n
  rw [this, hl]

theorem fraction_app {n : Nat} {c : UInt8} {w : Bytes} (hc : isDigitB c = false) (hp : c ≠ 0x2E) (h : n < 1000000000) :
    Chrono.fraction (fractionText n ++ c :: w) = some (n, c :: w) := by
  unfold fractionText
  split
  · rename_i e
    subst e
    rw [List.nil_append]
    unfold Chrono.fraction
    split
    · rename_i e; injection e with e; exact absurd e hp
    · rfl
  split
  · rename_i e1 e2
    have := fraction_pad (w := 3) (n := n / 1000000) (c := c) (r := w) hc (by show _ < 1000; omega) (by omega) (by omega)
    rw [show n / 1000000 * 10 ^ (9 - 3) = n by show _ * 1000000 = n; omega] at this
    simpa using this
  split
  · rename_i e1 e2 e3
    have := fraction_pad (w := 6) (n := n / 1000) (c := c) (r := w) hc (by show _ < 1000000; omega) (by omega) (by omega)
    rw [show n / 1000 * 10 ^ (9 - 6) = n by show _ * 1000 = n; omega] at this
    simpa using this
  · have := fraction_pad (w := 9) (n := n) (c := c) (r := w) hc h (by omega) (by omega)
    simpa using this

/-- The range of `DateTime<Utc>`. -/
def InRange (t : Timestamp) : Prop := daysTo (-262143) * 86400 ≤ t.secs ∧ t.secs < daysTo 262143 * 86400

theorem inRange_iff (t : Timestamp) : InRange t ↔ -8334601228800 ≤ t.secs ∧ t.secs < 8210266876800 := by
  unfold InRange
  rw [show daysTo (-262143) * 86400 = -8334601228800 by decide, show daysTo 262143 * 86400 = 8210266876800 by decide]

theorem lengths_at (y : Int) (k : Nat) (hk : k < 12) :
    (monthLengths (decide (y % 4 = 0 ∧ (y % 100 ≠ 0 ∨ y % 400 = 0))))[k]? = some (daysIn y (k + 1)) := by
  have hl : (k < (monthLengths (decide (y % 4 = 0 ∧ (y % 100 ≠ 0 ∨ y % 400 = 0)))).length) := by
    simpa [monthLengths] using hk
  have := month_lookup (decide (y % 4 = 0 ∧ (y % 100 ≠ 0 ∨ y % 400 = 0))) y (by rw [decide_eq_true_eq]; rfl) k _
    (List.getElem?_eq_getElem hl)
  rw [List.getElem?_eq_getElem hl, this.2.1]

theorem days_isDate {day y : Int} {m d : Nat} (h : IsDate day y m d) : Chrono.days y m d = day := by
  obtain ⟨⟨h1, h2⟩, ⟨h3, h4⟩, h5⟩ := h
  have := month_lookup (decide (y % 4 = 0 ∧ (y % 100 ≠ 0 ∨ y % 400 = 0))) y (by rw [decide_eq_true_eq]; rfl) (m - 1) _
    (lengths_at y (m - 1) (by omega))
  rw [show m - 1 + 1 = m by omega] at this
  unfold Chrono.days
  dsimp only
  rw [this.2.2]
  unfold daysTo at h5
  dsimp only at h5
  omega

theorem year_range {day y : Int} {m d : Nat} (h : IsDate day y m d) (h1 : daysTo (-262143) ≤ day) (h2 : day < daysTo 262143) :
    -262143 ≤ y ∧ y ≤ 262142 := by
  obtain ⟨a, b⟩ := date_in_year h
  constructor
  · by_cases hy : y + 1 ≤ -262143
    · have := daysTo_mono (y + 1) (-262143 - (y + 1)).toNat
      rw [show y + 1 + ((-262143 - (y + 1)).toNat : Int) = -262143 by omega] at this
      omega
    · omega
  · by_cases hy : 262143 ≤ y
    · have := daysTo_mono 262143 (y - 262143).toNat
      rw [show 262143 + ((y - 262143).toNat : Int) = y by omega] at this
      omega
    · omega

theorem resolve_eq {t l : Timestamp} {day y o : Int} {m d hh mm ss nn : Nat} (hr : InRange t) (hl : InRange l)
    (hd : IsDate day y m d) (h1 : hh < 24) (h2 : mm < 60) (h3 : ss ≤ 60)
    (ht : l.secs = day * 86400 + hh * 3600 + mm * 60 + (if ss = 60 then 59 else ss : Nat))
    (hn : l.nanos = if ss = 60 then nn + 1000000000 else nn) (hs : t.secs = l.secs - o) (he : t.nanos = l.nanos) :
    resolve y m d hh mm ss nn o = some t := by
  have hr' := (inRange_iff t).1 hr
  have hday : daysTo (-262143) ≤ day ∧ day < daysTo 262143 := by
    unfold InRange at hl
    have : (if ss = 60 then 59 else ss : Nat) < 60 := by split <;> omega
    omega
  have hy := year_range hd hday.1 hday.2
  have hl : (monthLengths (decide (y % 4 = 0 ∧ (y % 100 ≠ 0 ∨ y % 400 = 0)))).getD (m - 1) 0 = daysIn y m := by
    have := hd.inYear
    rw [List.getD_eq_getElem?_getD, lengths_at y (m - 1) (by omega), show m - 1 + 1 = m by omega]
    rfl
  have hs : Chrono.days y m d * 86400 + hh * 3600 + mm * 60 + ((if ss = 60 then 59 else ss : Nat) : Int) - o = t.secs := by
    rw [days_isDate hd]; omega
  unfold resolve
  dsimp only
  rw [if_neg (by
    rw [hl]
    have := hd.inYear
    have := hd.inMonth
    omega)]
  rw [hn] at he
  simp only [hs, ← he]
  rw [dif_pos t.valid, if_pos hr']

/-- A time of day with what stands behind it: `Z`, or an offset. -/
theorem read_with {t l : Timestamp} {day y o : Int} {m d hh mm ss nn : Nat} {x : UInt8} {w : Bytes}
    (hr : InRange t) (hl : InRange l) (hd : IsDate day y m d)
    (h1 : hh < 24) (h2 : mm < 60) (h3 : ss ≤ 60) (h4 : nn < 1000000000)
    (ht : l.secs = day * 86400 + hh * 3600 + mm * 60 + (if ss = 60 then 59 else ss : Nat))
    (hn : l.nanos = if ss = 60 then nn + 1000000000 else nn) (hs : t.secs = l.secs - o) (he : t.nanos = l.nanos)
    (hx : isDigitB x = false) (hp : x ≠ 0x2E) (ho : Chrono.offset (x :: w) = some (o, []))
    {s : Bytes} (hbody : showTime y m d hh mm ss nn = s ++ b!"Z") : read (s ++ x :: w) = some t := by
  have hday : daysTo (-262143) ≤ day ∧ day < daysTo 262143 := by
    unfold InRange at hl
    have : (if ss = 60 then 59 else ss : Nat) < 60 := by split <;> omega
    omega
  have hy := year_range hd hday.1 hday.2
  have hdom : d ≤ 31 := by
    have := hd.inMonth.2
    unfold daysIn at this
    repeat' split at this
    all_goals omega
  have hmon := hd.inYear
  have hres := resolve_eq hr hl hd h1 h2 h3 ht hn hs he
  unfold showTime at hbody
  have hb := List.append_cancel_right hbody
  subst hb
  rw [← yearText_eq, ← decPad_digitsOf 1 m (by show _ < 100; omega), ← decPad_digitsOf 1 d (by show _ < 100; omega),
    ← decPad_digitsOf 1 hh (by show _ < 100; omega), ← decPad_digitsOf 1 mm (by show _ < 100; omega),
    ← decPad_digitsOf 1 ss (by show _ < 100; omega), ← fractionText_eq h4]
  have e : yearText y ++ b!"-" ++ decPad 2 m ++ b!"-" ++ decPad 2 d ++ b!"T" ++ decPad 2 hh ++ b!":" ++ decPad 2 mm ++
      b!":" ++ decPad 2 ss ++ fractionText nn ++ x :: w =
      yearText y ++ 0x2D :: (decPad 2 m ++ 0x2D :: (decPad 2 d ++ 0x54 :: (decPad 2 hh ++ 0x3A :: (decPad 2 mm ++
        0x3A :: (decPad 2 ss ++ (fractionText nn ++ x :: w)))))) := by simp
  show read (yearText y ++ b!"-" ++ decPad 2 m ++ b!"-" ++ decPad 2 d ++ b!"T" ++ decPad 2 hh ++ b!":" ++ decPad 2 mm ++
      b!":" ++ decPad 2 ss ++ fractionText nn ++ x :: w) = _
  rw [e]
  obtain ⟨c, r, hc, hf⟩ : ∃ c r, isDigitB c = false ∧ fractionText nn ++ x :: w = c :: r := by
    unfold fractionText
    split
    · exact ⟨x, w, hx, rfl⟩
    split
    · exact ⟨0x2E, _, by decide, rfl⟩
    split
    · exact ⟨0x2E, _, by decide, rfl⟩
    · exact ⟨0x2E, _, by decide, rfl⟩
  have hfr := fraction_app (w := w) hx hp h4
  rw [hf] at hfr ⊢
  unfold Chrono.read
  simp only [year_app (c := 0x2D) (by decide) (by omega : y.natAbs < 2 ^ 63), number_pad (c := 0x2D) (by decide) (by omega : m < 100),
    number_pad (c := 0x54) (by decide) (by omega : d < 100), number_pad (c := 0x3A) (by decide) (by omega : hh < 100),
    number_pad (c := 0x3A) (by decide) (by omega : mm < 100), number_pad hc (by omega : ss < 100), literal, hfr, ho,
    Option.bind_eq_bind, Option.bind_some, List.mem_cons, true_or, or_true, if_true]
  exact hres

theorem read_text {t : Timestamp} {day y : Int} {m d hh mm ss nn : Nat} (hr : InRange t) (hd : IsDate day y m d)
    (h1 : hh < 24) (h2 : mm < 60) (h3 : ss ≤ 60) (h4 : nn < 1000000000)
    (ht : t.secs = day * 86400 + hh * 3600 + mm * 60 + (if ss = 60 then 59 else ss : Nat))
    (hn : t.nanos = if ss = 60 then nn + 1000000000 else nn) : read (showTime y m d hh mm ss nn) = some t :=
  read_with (x := 0x5A) (w := []) hr hr hd h1 h2 h3 h4 ht hn (Int.sub_zero _).symm rfl (by decide) (by decide) rfl rfl

/-- What is shown of a local time, with an offset behind it in place of the `Z`. -/
theorem read_shown_with {t l : Timestamp} {s : Bytes} (h : ShowsTime l (s ++ b!"Z")) (hr : InRange t) (hl : InRange l)
    {o : Int} {x : UInt8} {w : Bytes} (hs : t.secs = l.secs - o) (he : t.nanos = l.nanos)
    (hx : isDigitB x = false) (hp : x ≠ 0x2E) (ho : Chrono.offset (x :: w) = some (o, [])) :
    read (s ++ x :: w) = some t := by
  generalize hb : s ++ b!"Z" = z at h
  cases h with
  | mk day year month dom hour min sec hd hh hm hsec hn ht =>
    have : ¬ sec = 60 := by omega
    exact read_with hr hl hd hh hm (by omega) hn (by rw [if_neg this]; exact ht) (by rw [if_neg this]) hs he hx hp ho hb.symm
  | leap day year month dom hour min nanos hd hh hm hn hl' ht =>
    exact read_with hr hl hd hh hm (by omega) hn (by rw [if_pos rfl]; exact ht) (by rw [if_pos rfl]; omega) hs he hx hp ho
      hb.symm

theorem number_app_end {min max n : Nat} {ds : Bytes} (h : ∀ x ∈ ds, isDigitB x = true)
    (h1 : min ≤ ds.length) (h2 : ds.length ≤ max) (hn : decimal ds = n) (hb : n < 2 ^ 63) :
    number min max ds = some (n, []) := by
  have ht : (ds.take max).takeWhile Chrono.isDigit = ds := by
    rw [List.take_of_length_le h2]
    have := takeWhile_app Chrono.isDigit ds [] h (by simp)
    simpa using this
  have hv : Chrono.value ds = n := hn
  unfold number
  dsimp only
  rw [ht, if_neg (by omega), hv, List.drop_length]

theorem offset_app {x : UInt8} {h m : Nat} (hx : x = 0x2B ∨ x = 0x2D) (hh : h < 24) (hm : m < 60) :
    Chrono.offset (x :: (digitsOf 2 h ++ b!":" ++ digitsOf 2 m)) =
      some (if x = 0x2D then -((h : Int) * 3600 + m * 60) else (h : Int) * 3600 + m * 60, []) := by
  rw [← decPad_digitsOf 1 h (by show _ < 100; omega), ← decPad_digitsOf 1 m (by show _ < 100; omega)]
  have l1 := decPad_length (w := 2) (n := h) (by show _ < 100; omega) (by omega)
  have l2 := decPad_length (w := 2) (n := m) (by show _ < 100; omega) (by omega)
  have n1 := number_app (min := 2) (max := 2) (c := 0x3A) (r := decPad 2 m) (decPad_digits 2 h) (by decide) (by omega)
    (by omega) (decimal_decPad 2 h) (by omega)
  have n2 := number_app_end (min := 2) (max := 2) (decPad_digits 2 m) (by omega) (by omega) (decimal_decPad 2 m) (by omega)
  rw [show decPad (1 + 1) h ++ b!":" ++ decPad (1 + 1) m = decPad 2 h ++ 0x3A :: decPad 2 m by simp]
  rcases hx with rfl | rfl
  · simp only [Chrono.offset, n1, n2, literal, Option.bind_eq_bind, Option.bind_some, List.mem_cons, true_or, if_true]
    simp [n1, n2, Nat.not_le.2 hh, Nat.not_le.2 hm]
  · simp only [Chrono.offset, n1, n2, literal, Option.bind_eq_bind, Option.bind_some, List.mem_cons, true_or, if_true]
    simp [n1, n2, Nat.not_le.2 hh, Nat.not_le.2 hm]

theorem read_shown {t : Timestamp} {s : Bytes} (h : ShowsTime t s) (hr : InRange t) : read s = some t := by
  cases h with
  | mk day year month dom hour min sec hd hh hm hs hn ht =>
    have : ¬ sec = 60 := by omega
    exact read_text hr hd hh hm (by omega) hn (by rw [if_neg this]; exact ht) (by rw [if_neg this])
  | leap day year month dom hour min nanos hd hh hm hn hl ht =>
    exact read_text hr hd hh hm (by omega) hn (by rw [if_pos rfl]; exact ht) (by rw [if_pos rfl]; omega)

theorem resolve_range {y : Int} {m d hh mm ss nn : Nat} {o : Int} {t : Timestamp}
    (h : resolve y m d hh mm ss nn o = some t) : InRange t := by
  unfold resolve at h
  dsimp only at h
  rw [Option.ite_none_left_eq_some] at h
  obtain ⟨_, h⟩ := h
  rw [Option.dite_none_right_eq_some] at h
  obtain ⟨_, h⟩ := h
  rw [Option.ite_none_right_eq_some] at h
  obtain ⟨hr, h⟩ := h
  injection h with h
  subst h
  exact (inRange_iff _).2 hr

theorem read_range {s : Bytes} {t : Timestamp} (h : read s = some t) : InRange t := by
  unfold Chrono.read at h
  simp only [Option.bind_eq_bind, Option.bind_eq_some_iff] at h
  obtain ⟨_, _, _, _, _, _, _, _, _, _, _, _, _, _, _, _, _, _, _, _, _, _, _, _, _, _, h⟩ := h
  split at h
  · exact resolve_range h
  · cases h

theorem codec_inverse {t : Timestamp} (h : InRange t) : codec.read (codec.show_ t) = some t :=
  read_shown (timestampText_shows t) h

theorem codec_faithful : TimeCodec.Faithful codec := by
  intro t ms hc ha
  refine codec_inverse ?_
  unfold InChrono at hc
  unfold AtMilli at ha
  unfold InRange
  omega

theorem codec_stable : TimeCodec.Stable codec := fun _ _ h => codec_inverse (read_range h)

end Tmi.Proofs.Chrono
