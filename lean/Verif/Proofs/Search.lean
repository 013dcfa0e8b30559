/-
`find_first` is `find`: correctness and memory safety of the vectorised search.
-/
import Verif.Model.Tags
import Verif.Proofs.Wide
import Verif.Proofs.Utf8

namespace Tmi.Model

theorem map_beq_not_mem {x : UInt8} {a : Bytes} (h : x ∉ a) :
    a.map (· == x) = List.replicate a.length false := by
  induction a with
  | nil => rfl
  | cons y t ih =>
    simp at h
    simp [ih h.2, List.replicate_succ, Ne.symm h.1]

theorem chunkMatch_eq {B : Backend} (L : Lawful B) {chunk : Bytes} (x : UInt8)
    (hlen : chunk.length = B.size) : chunkMatch B chunk x = find x chunk := by
  unfold chunkMatch
  simp only [L.movemask_eq chunk x hlen]
  by_cases h : x ∈ chunk
  · obtain ⟨a, b, rfl, ha⟩ := mem_split h
    have hm : (a ++ x :: b).map (· == x)
        = List.replicate a.length false ++ true :: b.map (· == x) := by
      simp [map_beq_not_mem ha]
    simp at hlen
    rw [hm, L.hasMatch_true _ _ (by simp; omega), L.firstMatch_eq _ _ (by simp; omega),
      L.asIndex_eq _ (by omega), find_append b ha]
    simp
  · rw [map_beq_not_mem h, hlen, L.hasMatch_false, find_none h]
    simp

theorem find_some {x : UInt8} {s : Bytes} {i : Nat} (h : find x s = some i) :
    ∃ a b, s = a ++ x :: b ∧ x ∉ a ∧ a.length = i := by
  by_cases hm : x ∈ s
  · obtain ⟨a, b, rfl, ha⟩ := mem_split hm
    rw [find_append b ha] at h
    exact ⟨a, b, rfl, ha, by simpa using h⟩
  · rw [find_none hm] at h; simp at h

theorem find_eq_none {x : UInt8} {s : Bytes} (h : find x s = none) : x ∉ s := by
  intro hm
  obtain ⟨a, b, rfl, ha⟩ := mem_split hm
  rw [find_append b ha] at h
  simp at h

/-- A hit in a window whose left context is clean is the first hit. -/
theorem find_window {x : UInt8} {s : Bytes} {off n p : Nat} (hpre : x ∉ s.take off)
    (h : find x ((s.drop off).take n) = some p) : find x s = some (off + p) := by
  obtain ⟨a, b, he, ha, rfl⟩ := find_some h
  have hs : s = s.take off ++ ((s.drop off).take n ++ (s.drop off).drop n) := by
    rw [List.take_append_drop, List.take_append_drop]
  have hoff : (s.take off).length = off := by
    rw [List.length_take]
    apply Nat.min_eq_left
    rcases Nat.lt_or_ge off s.length with h | h
    · omega
    · rw [List.drop_eq_nil_of_le h] at he
      simp at he
  rw [he] at hs
  have hs' : s = (s.take off ++ a) ++ x :: (b ++ (s.drop off).drop n) := by
    calc s = _ := hs
      _ = _ := by simp
  rw [hs', find_append]
  · simp [hoff]
  · simp [ha, hpre]

/-- No hit in a window extends the clean prefix. -/
theorem clean_window {x : UInt8} {s : Bytes} {off n : Nat} (hpre : x ∉ s.take off)
    (h : find x ((s.drop off).take n) = none) : x ∉ s.take (off + n) := by
  rw [List.take_add]
  simp [hpre, find_eq_none h]

theorem window_length {s : Bytes} {off n : Nat} (h : off + n ≤ s.length) :
    ((s.drop off).take n).length = n := by simp; omega

theorem findUnrolled_spec {B : Backend} (L : Lawful B) (d : Slice) (x : UInt8) (off : Nat)
    (hal : (d.addr + off) % B.size = 0) (hpre : x ∉ d.bytes.take off) :
    ∃ r, findUnrolled B d x off = .ok r ∧
      match r with
      | .found i => find x d.bytes = some i
      | .next off' => off ≤ off' ∧ (d.addr + off') % B.size = 0 ∧ x ∉ d.bytes.take off' := by
  induction off using findUnrolled.induct B d with
  | case1 off hlt ih =>
    have hpos := B.size_pos
    have halk : ∀ k, (d.addr + (off + B.size * k)) % B.size = 0 := by
      intro k
      rw [← Nat.add_assoc, Nat.add_mul_mod_self_left]; exact hal
    have hload : ∀ k, k ≤ 3 → loadAligned B d (off + B.size * k)
        = .ok ((d.bytes.drop (off + B.size * k)).take B.size) ∧
        ((d.bytes.drop (off + B.size * k)).take B.size).length = B.size := by
      intro k hk
      have hle : off + B.size * k + B.size ≤ d.bytes.length := by
        have : B.size * k ≤ B.size * 3 := Nat.mul_le_mul_left _ hk
        omega
      refine ⟨?_, window_length hle⟩
      unfold loadAligned
      rw [if_pos hle, if_pos (halk k)]
    rw [findUnrolled, if_pos hlt]
    rw [(hload 0 (by omega)).1, (hload 1 (by omega)).1, (hload 2 (by omega)).1,
      (hload 3 (by omega)).1]
    simp only [bind, Except.bind]
    rw [chunkMatch_eq L x (hload 0 (by omega)).2, chunkMatch_eq L x (hload 1 (by omega)).2,
      chunkMatch_eq L x (hload 2 (by omega)).2, chunkMatch_eq L x (hload 3 (by omega)).2]
    have hpre0 : x ∉ d.bytes.take (off + B.size * 0) := by simpa using hpre
    cases h0 : find x ((d.bytes.drop (off + B.size * 0)).take B.size) with
    | some p =>
      refine ⟨_, rfl, ?_⟩
      have := find_window hpre0 h0
      simp only [this]; congr 1; omega
    | none =>
    have hpre1 := clean_window hpre0 h0
    rw [show off + B.size * 0 + B.size = off + B.size * 1 by omega] at hpre1
    cases h1 : find x ((d.bytes.drop (off + B.size * 1)).take B.size) with
    | some p =>
      refine ⟨_, rfl, ?_⟩
      have := find_window hpre1 h1
      simp only [this]; congr 1; omega
    | none =>
    have hpre2 := clean_window hpre1 h1
    rw [show off + B.size * 1 + B.size = off + B.size * 2 by omega] at hpre2
    cases h2 : find x ((d.bytes.drop (off + B.size * 2)).take B.size) with
    | some p =>
      refine ⟨_, rfl, ?_⟩
      have := find_window hpre2 h2
      simp only [this]; congr 1; omega
    | none =>
    have hpre3 := clean_window hpre2 h2
    rw [show off + B.size * 2 + B.size = off + B.size * 3 by omega] at hpre3
    cases h3 : find x ((d.bytes.drop (off + B.size * 3)).take B.size) with
    | some p =>
      refine ⟨_, rfl, ?_⟩
      have := find_window hpre3 h3
      simp only [this]; congr 1; omega
    | none =>
    have hpre4 := clean_window hpre3 h3
    rw [show off + B.size * 3 + B.size = off + B.size * 4 by omega] at hpre4
    obtain ⟨r, hr, hp⟩ := ih (halk 4) hpre4
    refine ⟨r, hr, ?_⟩
    cases r with
    | found i => exact hp
    | next o => exact ⟨by simp at hp; omega, hp.2⟩
  | case2 off hge =>
    rw [findUnrolled, if_neg hge]
    exact ⟨_, rfl, by simp, hal, hpre⟩

theorem findAligned_spec {B : Backend} (L : Lawful B) (d : Slice) (x : UInt8) (off : Nat)
    (hal : (d.addr + off) % B.size = 0) (hpre : x ∉ d.bytes.take off) :
    ∃ r, findAligned B d x off = .ok r ∧
      match r with
      | .found i => find x d.bytes = some i
      | .next off' => d.bytes.length < off' + B.size ∧ x ∉ d.bytes.take off' := by
  induction off using findAligned.induct B d with
  | case1 off hle ih =>
    rw [findAligned, if_pos hle]
    unfold loadAligned
    rw [if_pos hle, if_pos hal]
    simp only [bind, Except.bind]
    rw [chunkMatch_eq L x (window_length hle)]
    cases h0 : find x ((d.bytes.drop off).take B.size) with
    | some p => exact ⟨_, rfl, find_window hpre h0⟩
    | none =>
      exact ih (by rw [← Nat.add_assoc, Nat.add_mod_right]; exact hal) (clean_window hpre h0)
  | case2 off hgt =>
    rw [findAligned, if_neg hgt]
    exact ⟨_, rfl, by omega, hpre⟩

theorem scalarFind_eq (x : UInt8) : ∀ (s : Bytes) (i : Nat),
    scalarFind x s i = (find x s).map (· + i)
  | [], i => rfl
  | y :: t, i => by
    unfold scalarFind find
    split
    · simp
    · rw [scalarFind_eq x t (i + 1)]
      cases find x t <;> simp; omega

theorem findFirst_eq {B : Backend} (L : Lawful B) (d : Slice) (x : UInt8) :
    findFirst B d x = .ok (find x d.bytes) := by
  have hpos := B.size_pos
  unfold findFirst
  split
  · rw [scalarFind_eq]; simp
  · rename_i hlen
    have hlen : B.size ≤ d.bytes.length := by omega
    have hw : ((d.bytes.drop 0).take B.size).length = B.size := window_length (by omega)
    unfold loadUnaligned
    rw [if_pos (by omega)]
    simp only [bind, Except.bind]
    rw [chunkMatch_eq L x hw]
    cases h0 : find x ((d.bytes.drop 0).take B.size) with
    | some p =>
      have := find_window (off := 0) (by simp) h0
      simp [pure, Except.pure, this]
    | none =>
      have hpre0 := clean_window (off := 0) (by simp) h0
      simp only [Nat.zero_add] at hpre0
      have hmod : d.addr % B.size < B.size := Nat.mod_lt _ hpos
      have hdm := Nat.mod_add_div d.addr B.size
      have hu1 : usub (d.addr + B.size) (d.addr % B.size)
          = .ok (d.addr + B.size - d.addr % B.size) := by
        unfold usub; rw [if_pos (by omega)]
      have hu2 : usub (d.addr + B.size - d.addr % B.size) d.addr
          = .ok (B.size - d.addr % B.size) := by
        unfold usub; rw [if_pos (by omega)]; congr 1; omega
      simp only [hu1, hu2]
      have hal : (d.addr + (B.size - d.addr % B.size)) % B.size = 0 := by
        have : d.addr + (B.size - d.addr % B.size) = B.size * (d.addr / B.size + 1) := by
          rw [Nat.mul_add]; omega
        rw [this, Nat.mul_mod_right]
      have hpre : x ∉ d.bytes.take (B.size - d.addr % B.size) := by
        intro h
        apply hpre0
        exact List.take_subset_take_left _ (by omega) h
      obtain ⟨r, hr, hp⟩ := findUnrolled_spec L d x _ hal hpre
      rw [hr]
      cases r with
      | found i => simp only [hp]; rfl
      | next off =>
        obtain ⟨_, hal, hpre⟩ := hp
        simp only []
        obtain ⟨r, hr, hp⟩ := findAligned_spec L d x _ hal hpre
        rw [hr]
        cases r with
        | found i => simp only [hp]; rfl
        | next off =>
          obtain ⟨hgt, hpre⟩ := hp
          simp only []
          split
          · rename_i hlt
            have hu3 : usub d.bytes.length B.size = .ok (d.bytes.length - B.size) := by
              unfold usub; rw [if_pos hlen]
            simp only [hu3]
            rw [if_pos (by omega)]
            simp only []
            rw [chunkMatch_eq L x (window_length (by omega))]
            have hpre' : x ∉ d.bytes.take (d.bytes.length - B.size) := by
              intro h
              apply hpre
              exact List.take_subset_take_left _ (by omega) h
            cases h5 : find x ((d.bytes.drop (d.bytes.length - B.size)).take B.size) with
            | some p =>
              have := find_window hpre' h5
              simp [pure, Except.pure, this]
            | none =>
              have := clean_window hpre' h5
              rw [Nat.sub_add_cancel hlen, List.take_length] at this
              simp [pure, Except.pure, find_none this]
          · rename_i hge
            rw [List.take_of_length_le (by omega)] at hpre
            simp [pure, Except.pure, find_none hpre]

end Tmi.Model
