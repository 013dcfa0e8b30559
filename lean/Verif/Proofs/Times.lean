/-
The texts that chrono reads as a point in time are those of the specification.
-/
import Verif.Proofs.Chrono
import Verif.Spec.Times

namespace Tmi.Proofs.Chrono
open Model Spec Model.Chrono

theorem digit_iff (x : UInt8) : isDigitB x = true ↔ 0x30 ≤ x ∧ x ≤ 0x39 := by simp [isDigitB]

theorem Figures.digits {lo hi n : Nat} {s : Bytes} (h : Figures lo hi s n) : ∀ x ∈ s, isDigitB x = true :=
  fun x hx => (digit_iff x).2 (h.2.2.1.2 x hx)

theorem decimal_lt : ∀ (s : Bytes) (_ : ∀ x ∈ s, isDigitB x = true), decimal s < 10 ^ s.length := by
  have key : ∀ (s : Bytes) (a : Nat), (∀ x ∈ s, isDigitB x = true) →
      s.foldl (fun n c => n * 10 + (c.toNat - 48)) a < (a + 1) * 10 ^ s.length := by
    intro s
    induction s with
    | nil => intro a _; simp
    | cons x s ih =>
      intro a h
      have hx := (digit_iff x).1 (h x (by simp))
      have h9 : x.toNat ≤ 57 := by have := UInt8.le_iff_toNat_le.1 hx.2; simpa using this
      have := ih (a * 10 + (x.toNat - 48)) (fun y hy => h y (by simp [hy]))
      simp only [List.foldl_cons, List.length_cons]
      refine Nat.lt_of_lt_of_le this ?_
      rw [Nat.pow_succ, Nat.mul_comm (10 ^ s.length) 10, ← Nat.mul_assoc]
      exact Nat.mul_le_mul_right _ (by omega)
  intro s h
  have := key s 0 h
  rw [Nat.zero_add, Nat.one_mul] at this
  exact this

theorem takeWhile_mem (p : UInt8 → Bool) : ∀ {s : Bytes} {x : UInt8}, x ∈ s.takeWhile p → p x = true
  | [], _, h => by simp at h
  | y :: s, x, h => by
    rw [List.takeWhile_cons] at h
    split at h
    · rcases List.mem_cons.1 h with rfl | h
      · assumption
      · exact takeWhile_mem p h
    · simp at h

theorem number_inv {lo hi n : Nat} {s r : Bytes} (h0 : 1 ≤ lo) (h : number lo hi s = some (n, r)) :
    ∃ ds, s = ds ++ r ∧ Figures lo hi ds n := by
  unfold number at h
  dsimp only at h
  generalize hd : (s.take hi).takeWhile Chrono.isDigit = ds at h
  have hpre : ds <+: s := by
    rw [← hd]
    exact (List.takeWhile_prefix _).trans (List.take_prefix _ _)
  have hlen : ds.length ≤ hi := by
    rw [← hd]
    have := (List.takeWhile_prefix (p := Chrono.isDigit) (l := s.take hi)).length_le
    rw [List.length_take] at this
    omega
  split at h
  · cases h
  · rename_i hg
    injection h with h
    injection h with h1 h2
    obtain ⟨z, hz⟩ := hpre
    refine ⟨ds, ?_, by omega, hlen, ⟨?_, ?_⟩, h1⟩
    · rw [← h2, ← hz, List.drop_left]
    · intro e; rw [e] at hg; simp at hg; omega
    · intro x hx
      rw [← hd] at hx
      exact (digit_iff x).1 (takeWhile_mem _ hx)

theorem number_figures {lo hi n : Nat} {ds r : Bytes} {c : UInt8} (h : Figures lo hi ds n) (hc : isDigitB c = false)
    (hb : n < 2 ^ 63) : number lo hi (ds ++ c :: r) = some (n, c :: r) :=
  number_app (Figures.digits h) hc h.1 h.2.1 h.2.2.2 hb

theorem figures_lt {lo hi n : Nat} {ds : Bytes} (h : Figures lo hi ds n) (hi4 : hi ≤ 4) : n < 10000 := by
  have h1 := decimal_lt ds (Figures.digits h)
  rw [h.2.2.2] at h1
  have h2 : 10 ^ ds.length ≤ 10 ^ 4 := Nat.pow_le_pow_right (by omega) (by have := h.2.1; omega)
  omega

theorem literal_inv {xs : List UInt8} {s r : Bytes} (h : literal xs s = some r) : ∃ x ∈ xs, s = x :: r := by
  cases s with
  | nil => cases h
  | cons x s =>
    simp only [literal] at h
    split at h
    · injection h with h; subst h; exact ⟨x, by assumption, rfl⟩
    · cases h

theorem year_inv {s r : Bytes} {y : Int} (h : Chrono.year s = some (y, r)) : ∃ d, s = d ++ r ∧ YearOf d y := by
  unfold Chrono.year at h
  split at h
  · rw [Option.map_eq_some_iff] at h
    obtain ⟨⟨n, z⟩, hn, e⟩ := h
    injection e with e1 e2
    subst e1; subst e2
    obtain ⟨ds, hs, hf⟩ := number_inv (by omega) hn
    refine ⟨0x2D :: ds, by rw [hs]; rfl, ?_⟩
    rw [← hf.2.2.2]
    exact .minus hf.2.2.1
  · rw [Option.map_eq_some_iff] at h
    obtain ⟨⟨n, z⟩, hn, e⟩ := h
    injection e with e1 e2
    subst e1; subst e2
    obtain ⟨ds, hs, hf⟩ := number_inv (by omega) hn
    refine ⟨0x2B :: ds, by rw [hs]; rfl, ?_⟩
    rw [← hf.2.2.2]
    exact .plus hf.2.2.1
  · rw [Option.map_eq_some_iff] at h
    obtain ⟨⟨n, z⟩, hn, e⟩ := h
    injection e with e1 e2
    subst e1; subst e2
    obtain ⟨ds, hs, hf⟩ := number_inv (by omega) hn
    exact ⟨ds, hs, .plain hf⟩

theorem year_of {d r : Bytes} {y : Int} {c : UInt8} (h : YearOf d y) (hc : isDigitB c = false)
    (hy : -262143 ≤ y ∧ y ≤ 262142) : Chrono.year (d ++ c :: r) = some (y, c :: r) := by
  have any : ∀ {ds : Bytes}, Digits ds → decimal ds < 2 ^ 63 →
      number 1 (ds ++ c :: r).length (ds ++ c :: r) = some (decimal ds, c :: r) := by
    intro ds hd hb
    refine number_app (fun x hx => (digit_iff x).2 (hd.2 x hx)) hc ?_ (by simp) rfl hb
    exact List.length_pos_iff.2 hd.1
  cases h with
  | plain h =>
    have hn := number_figures (r := r) h hc (by have := figures_lt h (by omega); omega)
    obtain ⟨x, xs, e⟩ : ∃ x xs, d = x :: xs := by
      cases e : d with
      | nil => rw [e] at h; exact absurd rfl h.2.2.1.1
      | cons x xs => exact ⟨x, xs, rfl⟩
    subst e
    have hx := Figures.digits h x (by simp)
    rw [List.cons_append] at hn ⊢
    unfold Chrono.year
    split
    · rename_i e; injection e with e; subst e; simp [isDigitB] at hx
    · rename_i e; injection e with e; subst e; simp [isDigitB] at hx
    · rw [hn]; simp
  | plus h =>
    rename_i ds
    show Chrono.year (0x2B :: (ds ++ c :: r)) = _
    simp only [Chrono.year, any h (by omega), Option.map_some]
  | minus h =>
    rename_i ds
    show Chrono.year (0x2D :: (ds ++ c :: r)) = _
    simp only [Chrono.year, any h (by omega), Option.map_some]

theorem decimal_zeros (s : Bytes) (k : Nat) : decimal (s ++ List.replicate k 0x30) = decimal s * 10 ^ k := by
  induction k generalizing s with
  | zero => simp
  | succ k ih =>
    rw [List.replicate_succ', ← List.append_assoc]
    unfold decimal at ih ⊢
    rw [List.foldl_append, ih]
    simp [Nat.pow_succ, Nat.mul_assoc]

theorem nine (s : Bytes) : decimal ((s ++ b!"000000000").take 9) = decimal (s.take 9) * 10 ^ (9 - (s.take 9).length) := by
  rw [← decimal_zeros, show (b!"000000000" : Bytes) = List.replicate 9 0x30 from rfl, List.take_append,
    List.take_replicate, List.length_take]
  congr 3
  omega

theorem fraction_inv {s r : Bytes} {n : Nat} (h : Chrono.fraction s = some (n, r)) :
    ∃ d, s = d ++ r ∧ FractionOf d n := by
  unfold Chrono.fraction at h
  split at h
  · rename_i s
    dsimp only at h
    generalize hd : s.takeWhile Chrono.isDigit = ds at h
    split at h
    · cases h
    · rename_i hne
      injection h with h
      injection h with h1 h2
      obtain ⟨z, hz⟩ : ds <+: s := by rw [← hd]; exact List.takeWhile_prefix _
      refine ⟨0x2E :: ds, ?_, ?_⟩
      · rw [← h2, List.cons_append, ← hz, List.drop_left]
      · have : n = decimal ((ds ++ b!"000000000").take 9) := by rw [nine, ← h1]; rfl
        rw [this]
        refine .some ⟨hne, fun x hx => ?_⟩
        rw [← hd] at hx
        exact (digit_iff x).1 (takeWhile_mem _ hx)
  · injection h with h
    injection h with h1 h2
    subst h1; subst h2
    exact ⟨[], rfl, .none⟩

theorem fraction_of {d r : Bytes} {n : Nat} {c : UInt8} (h : FractionOf d n) (hc : isDigitB c = false) (hp : c ≠ 0x2E) :
    Chrono.fraction (d ++ c :: r) = some (n, c :: r) := by
  cases h with
  | none =>
    rw [List.nil_append]
    unfold Chrono.fraction
    split
    · rename_i e; injection e with e; exact absurd e hp
    · rfl
  | some h =>
    rename_i s
    have ht : (s ++ c :: r).takeWhile Chrono.isDigit = s :=
      takeWhile_app _ _ _ (fun x hx => (digit_iff x).2 (h.2 x hx)) (by intro x hx; simp at hx; subst hx; exact hc)
    show Chrono.fraction (0x2E :: (s ++ c :: r)) = _
    simp only [Chrono.fraction]
    rw [ht, if_neg h.1, List.drop_left, nine]
    rfl

theorem offset_inv {s r : Bytes} {o : Int} (h : Chrono.offset s = some (o, r)) : ∃ d, s = d ++ r ∧ OffsetOf d o := by
  unfold Chrono.offset at h
  split at h
  · injection h with h; injection h with h1 h2; subst h1; subst h2
    exact ⟨b!"Z", rfl, .utc (.inl rfl)⟩
  · injection h with h; injection h with h1 h2; subst h1; subst h2
    exact ⟨b!"z", rfl, .utc (.inr rfl)⟩
  · rename_i x s _ _
    split at h
    · cases h
    · rename_i hx
      simp only [Option.bind_eq_bind, Option.bind_eq_some_iff] at h
      obtain ⟨⟨hr, s1⟩, e1, s2, e2, ⟨m, s3⟩, e3, e4⟩ := h
      obtain ⟨dh, hdh, fh⟩ := number_inv (by omega) e1
      obtain ⟨c, hc, hs1⟩ := literal_inv e2
      obtain ⟨dm, hdm, fm⟩ := number_inv (by omega) e3
      simp only [List.mem_cons, List.not_mem_nil, or_false] at hc
      subst hc
      dsimp only at hs1 hdm hdh e4
      split at e4
      · cases e4
      · rename_i hb
        injection e4 with e4
        injection e4 with e4 e5
        subst e5
        refine ⟨x :: (dh ++ b!":" ++ dm), by rw [hdh, hs1, hdm]; simp, ?_⟩
        by_cases h2 : x = 0x2D
        · rw [if_pos h2] at e4
          subst h2; subst e4
          exact .behind fh fm (by omega) (by omega)
        · rw [if_neg h2] at e4
          have h3 : x = 0x2B := by
            by_cases h3 : x = 0x2B
            · exact h3
            · exact absurd ⟨h3, h2⟩ hx
          subst h3; subst e4
          exact .ahead fh fm (by omega) (by omega)
  · cases h

theorem offset_figures {x : UInt8} {sh sm : Bytes} {h m : Nat} (hx : x = 0x2B ∨ x = 0x2D) (fh : Figures 2 2 sh h)
    (fm : Figures 2 2 sm m) (hh : h < 24) (hm : m < 60) :
    Chrono.offset (x :: (sh ++ 0x3A :: sm)) =
      some (if x = 0x2D then -((h : Int) * 3600 + m * 60) else (h : Int) * 3600 + m * 60, []) := by
  have n1 := number_figures (c := 0x3A) (r := sm) fh (by decide) (by omega)
  have n2 := number_app_end (Figures.digits fm) fm.1 fm.2.1 fm.2.2.2 (by omega)
  rcases hx with rfl | rfl
  · simp only [Chrono.offset, n1, n2, literal, Option.bind_eq_bind, Option.bind_some, List.mem_cons, true_or, if_true]
    simp [n1, n2, Nat.not_le.2 hh, Nat.not_le.2 hm]
  · simp only [Chrono.offset, n1, n2, literal, Option.bind_eq_bind, Option.bind_some, List.mem_cons, true_or, if_true]
    simp [n1, n2, Nat.not_le.2 hh, Nat.not_le.2 hm]

theorem offset_of {d : Bytes} {o : Int} (h : OffsetOf d o) :
    Chrono.offset d = some (o, []) ∧ ∃ c r, d = c :: r ∧ isDigitB c = false ∧ c ≠ 0x2E := by
  cases h with
  | utc h =>
    rcases h with rfl | rfl
    · exact ⟨rfl, _, _, rfl, by decide, by decide⟩
    · exact ⟨rfl, _, _, rfl, by decide, by decide⟩
  | ahead fh fm hh hm =>
    refine ⟨?_, _, _, rfl, by decide, by decide⟩
    have := offset_figures (.inl rfl) fh fm hh hm
    simpa using this
  | behind fh fm hh hm =>
    refine ⟨?_, _, _, rfl, by decide, by decide⟩
    have := offset_figures (.inr rfl) fh fm hh hm
    simpa using this

theorem resolve_iff {y o : Int} {month dom hour min sec nanos : Nat} {t : Timestamp}
    (hn : nanos < 1000000000) (ho : o % 60 = 0) :
    resolve y month dom hour min sec nanos o = some t ↔
      ∃ day, IsDate day y month dom ∧ hour < 24 ∧ min < 60 ∧ sec ≤ 60 ∧ (-262143 ≤ y ∧ y ≤ 262142) ∧
        t.secs = day * 86400 + hour * 3600 + min * 60 + (if sec = 60 then 59 else sec : Nat) - o ∧
        t.nanos = (if sec = 60 then nanos + 1000000000 else nanos) ∧ InRange t := by
  have hl : ∀ (_ : 1 ≤ month ∧ month ≤ 12),
      (monthLengths (decide (y % 4 = 0 ∧ (y % 100 ≠ 0 ∨ y % 400 = 0)))).getD (month - 1) 0 = daysIn y month := by
    intro h
    rw [List.getD_eq_getElem?_getD, lengths_at y (month - 1) (by omega), show month - 1 + 1 = month by omega]
    rfl
  unfold resolve
  dsimp only
  constructor
  · intro h
    split at h
    · cases h
    · rename_i hg
      have hmon : 1 ≤ month ∧ month ≤ 12 := by omega
      have hll := hl hmon
      rw [hll] at hg
      have hd : IsDate (daysTo y + daysBefore y month + dom - 1) y month dom := ⟨hmon, by omega, rfl⟩
      have hdays := days_isDate hd
      rw [dif_pos (by
        by_cases h60 : sec = 60
        · rw [if_pos h60, if_pos h60]; omega
        · rw [if_neg h60]; exact .inl hn)] at h
      by_cases hr : -8334601228800 ≤ Chrono.days y month dom * 86400 + hour * 3600 + min * 60 +
          ((if sec = 60 then 59 else sec : Nat) : Int) - o ∧ Chrono.days y month dom * 86400 + hour * 3600 + min * 60 +
          ((if sec = 60 then 59 else sec : Nat) : Int) - o < 8210266876800
      · rw [if_pos hr] at h
        have h := Option.some.inj h
        refine ⟨_, hd, by omega, by omega, by omega, by omega, ?_, ?_, (inRange_iff t).2 ?_⟩
        · rw [← h, ← hdays]
        · rw [← h]
        · rw [← h]; exact hr
      · rw [if_neg hr] at h
        cases h
  · rintro ⟨day, hd, h1, h2, h3, h4, hs, he, hr⟩
    have hll := hl hd.inYear
    have hdays := days_isDate hd
    rw [if_neg (by
      rw [hll]
      have := hd.inYear
      have := hd.inMonth
      omega)]
    have hs' : Chrono.days y month dom * 86400 + hour * 3600 + min * 60 + ((if sec = 60 then 59 else sec : Nat) : Int) - o =
        t.secs := by rw [hdays, hs]
    simp only [hs', ← he]
    rw [dif_pos t.valid, if_pos ((inRange_iff t).1 hr)]

theorem fractionOf_lt {s : Bytes} {n : Nat} (h : FractionOf s n) : n < 1000000000 := by
  cases h with
  | none => omega
  | some h =>
    rename_i s
    have := decimal_lt ((s ++ b!"000000000").take 9) (by
      intro x hx
      rcases List.mem_append.1 (List.mem_of_mem_take hx) with hx | hx
      · exact (digit_iff x).2 (h.2 x hx)
      · simp at hx; subst hx; decide)
    refine Nat.lt_of_lt_of_le this (Nat.le_trans (Nat.pow_le_pow_right (by omega) (List.length_take_le 9 _)) (by decide))

theorem offsetOf_minutes {s : Bytes} {o : Int} (h : OffsetOf s o) : o % 60 = 0 := by
  cases h <;> omega

theorem read_iff (t : Timestamp) (s : Bytes) : read s = some t ↔ TimeOf t s := by
  constructor
  · intro h
    unfold Chrono.read at h
    simp only [Option.bind_eq_bind, Option.bind_eq_some_iff] at h
    obtain ⟨⟨y, s1⟩, hy, s2, l1, ⟨month, s3⟩, hm, s4, l2, ⟨dom, s5⟩, hd, s6, l3, ⟨hour, s7⟩, hh, s8, l4, ⟨min, s9⟩, hi,
      s10, l5, ⟨sec, s11⟩, hs, ⟨nanos, s12⟩, hf, ⟨o, s13⟩, ho, hres⟩ := h
    dsimp only at *
    split at hres
    · rename_i he
      subst he
      obtain ⟨dy, ey, fy⟩ := year_inv hy
      obtain ⟨dm, em, fm⟩ := number_inv (by omega) hm
      obtain ⟨dd, ed, fd⟩ := number_inv (by omega) hd
      obtain ⟨dh, eh, fh⟩ := number_inv (by omega) hh
      obtain ⟨di, ei, fi⟩ := number_inv (by omega) hi
      obtain ⟨ds, es, fs⟩ := number_inv (by omega) hs
      obtain ⟨df, ef, ff⟩ := fraction_inv hf
      obtain ⟨d_o, eo, fo⟩ := offset_inv ho
      obtain ⟨c1, hc1, e1⟩ := literal_inv l1
      obtain ⟨c2, hc2, e2⟩ := literal_inv l2
      obtain ⟨c3, hc3, e3⟩ := literal_inv l3
      obtain ⟨c4, hc4, e4⟩ := literal_inv l4
      obtain ⟨c5, hc5, e5⟩ := literal_inv l5
      simp only [List.mem_cons, List.not_mem_nil, or_false] at hc1 hc2 hc4 hc5
      subst hc1; subst hc2; subst hc4; subst hc5
      obtain ⟨day, hdate, h1, h2, h3, h4, h5, h6, h7⟩ :=
        (resolve_iff (fractionOf_lt ff) (offsetOf_minutes fo)).1 hres
      have := TimeOf.mk fy fm fd hc3 fh fi fs ff fo hdate h1 h2 h3 h4 h5 h6 h7
      rw [ey, e1, em, e2, ed, e3, eh, e4, ei, e5, es, ef, eo]
      simpa using this
    · cases hres
  · intro h
    cases h with
    | mk fy fm fd hsep fh fi fs ff fo date hh hm hs year secs nano range =>
      rename_i sy sm sd sh si ss sf so sep day y o month dom hour min sec nanos
      obtain ⟨ho, c, r, hso, hc, hp⟩ := offset_of fo
      have hres := (resolve_iff (fractionOf_lt ff) (offsetOf_minutes fo)).2
        ⟨day, date, hh, hm, hs, year, secs, nano, range⟩
      have e : sy ++ b!"-" ++ sm ++ b!"-" ++ sd ++ [sep] ++ sh ++ b!":" ++ si ++ b!":" ++ ss ++ sf ++ so =
        sy ++ 0x2D :: (sm ++ 0x2D :: (sd ++ sep :: (sh ++ 0x3A :: (si ++ 0x3A :: (ss ++ (sf ++ so)))))) := by simp
      rw [e]
      have hfr := fraction_of (r := r) ff hc hp
      rw [← hso] at hfr
      obtain ⟨c', r', hc', hf⟩ : ∃ c' r', isDigitB c' = false ∧ sf ++ so = c' :: r' := by
        cases ff with
        | none => exact ⟨c, r, hc, hso⟩
        | some _ => exact ⟨0x2E, _, by decide, rfl⟩
      have hsd : isDigitB sep = false := by
        simp at hsep
        rcases hsep with rfl | rfl | rfl <;> decide
      have hls : ∀ z, literal [0x54, 0x74, 0x20] (sep :: z) = some z := by
        intro z
        have : sep ∈ [(0x54 : UInt8), 0x74, 0x20] := hsep
        simp only [literal, if_pos this]
      rw [hf] at hfr ⊢
      have ns := number_figures (r := r') fs hc' (by omega)
      have nm := number_figures (c := 0x2D) (r := sd ++ sep :: (sh ++ 0x3A :: (si ++ 0x3A :: (ss ++ c' :: r')))) fm (by decide)
        (by have := figures_lt fm (by omega); omega)
      have nd := number_figures (r := sh ++ 0x3A :: (si ++ 0x3A :: (ss ++ c' :: r'))) fd hsd
        (by have := figures_lt fd (by omega); omega)
      have nh := number_figures (c := 0x3A) (r := si ++ 0x3A :: (ss ++ c' :: r')) fh (by decide) (by omega)
      have ni := number_figures (c := 0x3A) (r := ss ++ c' :: r') fi (by decide) (by omega)
      unfold Chrono.read
      rw [year_of fy (by decide) year]
      have l1 : ∀ z, literal [0x2D] (0x2D :: z) = some z := fun _ => rfl
      have l2 : ∀ z, literal [0x3A] (0x3A :: z) = some z := fun _ => rfl
      simp only [Option.bind_eq_bind, Option.bind_some, hls, l1, l2, nm, nd, nh, ni, ns, hfr, ho, if_true]
      exact hres

end Tmi.Proofs.Chrono
