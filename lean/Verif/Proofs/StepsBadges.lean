/-
Helper lemmas about the work of reading badges.
-/
import Verif.Proofs.Steps

namespace Tmi.Proofs
open Model

namespace StepsP
open Model.Steps (Run pay)

theorem cutPieces_out (ps : List Bytes) : (Steps.cutPieces ps).out = .ok (ps.filterMap (splitOnce SLASH)) := by
  induction ps with
  | nil => rfl
  | cons p ps ih =>
    rw [Steps.cutPieces]
    simp only [out_bind, find_out, ok_bind, ih, out_pure]
    rw [List.filterMap_cons, splitOnce]
    cases find SLASH p <;> rfl

theorem findInfo_out (name : Bytes) (l : List (Bytes × Bytes)) :
    (Steps.findInfo name l).out = .ok (l.find? fun p => p.1 == name) := by
  induction l with
  | nil => rfl
  | cons p l ih =>
    rw [Steps.findInfo, List.find?_cons]
    simp only [out_bind, same_out, ok_bind, out_ite, out_pure, ih]
    cases p.1 == name <;> rfl

theorem makeBadges_out (info l : List (Bytes × Bytes)) : (Steps.makeBadges info l).out = .ok (l.map fun nv =>
    (BadgeData.mk nv.1 nv.2 ((info.find? fun p => p.1 == nv.1).map (·.2))).toBadge) := by
  induction l with
  | nil => rfl
  | cons nv l ih =>
    rw [Steps.makeBadges]
    simp only [out_bind, findInfo_out, ok_bind, out_pay, ih, out_pure]
    rfl

theorem parseBadges_out (a b : Bytes) : (Steps.parseBadges a b).out = .ok (parseBadges a b) := by
  unfold Steps.parseBadges parseBadges
  simp only [out_ite, out_bind, out_pay, ok_bind, cutPieces_out, makeBadges_out, out_pure]
  split <;> rfl

theorem badgesOf_out (m : MsgRef) : (Steps.badgesOf m).out = badgesOf m := by
  unfold Steps.badgesOf badgesOf
  simp only [out_bind, tag_out]
  congr 1; funext a; congr 1; funext b
  cases a <;> cases b <;> first | rfl | exact parseBadges_out ..

/-- The lengths of the pieces of a string, with one for each but the first for the separator. -/
theorem splitOn_lengths (x : UInt8) (s : Bytes) :
    ((splitOn x s).map fun p => p.length + 1).sum = s.length + 1 ∧ splitOn x s ≠ [] := by
  induction s with
  | nil => exact ⟨rfl, nofun⟩
  | cons y t ih =>
    rw [splitOn]
    split
    · exact ⟨by simp [ih.1]; omega, nofun⟩
    · cases h : splitOn x t with
      | nil => exact absurd h ih.2
      | cons p ps =>
        rw [h] at ih
        refine ⟨?_, nofun⟩
        have := ih.1
        simp at this ⊢
        omega

theorem find_lt {x : UInt8} {s : Bytes} {i : Nat} (h : find x s = some i) : i < s.length :=
  (find_within x s).2 _ (find_out x s) i h

/-- What is cut is not longer than what it is cut from: name, slash and version. -/
theorem cutPieces_within (ps : List Bytes) : Within (Steps.cutPieces ps) (ps.map fun p => p.length + 1).sum fun l =>
    (l.map fun nv => nv.1.length + 1 + nv.2.length).sum ≤ (ps.map List.length).sum := by
  induction ps with
  | nil => exact .pure (Nat.le_refl _)
  | cons p ps ih =>
    rw [Steps.cutPieces, List.map_cons, List.sum_cons]
    refine .bind (find_within ..) (fun o _ ho => .bind (m := 0) ih (fun l _ hl => ?_) (Nat.le_refl _)) (by omega)
    cases o with
    | none => exact .pure (by simp; omega)
    | some i =>
      have := ho i rfl
      exact .pure (by simp; omega)

theorem findInfo_within (name : Bytes) (l : List (Bytes × Bytes)) :
    Within (Steps.findInfo name l) (l.map fun nv => nv.1.length + 1 + nv.2.length).sum fun o =>
      (((o.map (·.2)).getD []).length ≤ (l.map fun nv => nv.1.length + 1 + nv.2.length).sum) := by
  induction l with
  | nil => exact .pure (Nat.zero_le _)
  | cons p l ih =>
    rw [Steps.findInfo, List.map_cons, List.sum_cons]
    refine .bind (P := fun _ => True) (.pay (Nat.le_refl _) fun _ _ => trivial) (fun b _ _ => ?_)
      (m := (l.map fun nv => nv.1.length + 1 + nv.2.length).sum) (by omega)
    exact .ite (fun _ => .pure (by simp; omega)) fun _ => ih.weaken (Nat.le_refl _) fun o h => by omega

theorem makeBadges_within (info l : List (Bytes × Bytes)) (k : Nat)
    (hk : (info.map fun nv => nv.1.length + 1 + nv.2.length).sum ≤ k) :
    Within (Steps.makeBadges info l) (l.length * (2 * k + 45)) fun _ => True := by
  induction l with
  | nil => exact .pure trivial
  | cons nv l ih =>
    rw [Steps.makeBadges, List.length_cons, Nat.add_mul]
    refine .bind (m := k + 45 + l.length * (2 * k + 45)) (findInfo_within ..) (fun o _ ho => ?_) (by omega)
    refine .tick (m := l.length * (2 * k + 45)) ?_ (by omega)
    exact .bind (m := 0) ih (fun _ _ _ => .pure trivial) (by omega)

theorem sum_lengths (l : List (Bytes × Bytes)) : l.length ≤ (l.map fun nv => nv.1.length + 1 + nv.2.length).sum := by
  induction l with
  | nil => exact Nat.zero_le _
  | cons a l ih => simp; omega

theorem pieces_le (x : UInt8) (s : Bytes) : ((splitOn x s).map List.length).sum ≤ s.length := by
  have h := splitOn_lengths x s
  have key : ∀ l : List Bytes, l ≠ [] → (l.map List.length).sum + 1 ≤ (l.map fun p => p.length + 1).sum := by
    intro l
    induction l with
    | nil => exact fun h => absurd rfl h
    | cons p l ih =>
      intro _
      cases l with
      | nil => simp
      | cons q l => have := ih nofun; simp at this ⊢; omega
  have := key _ h.2
  omega

theorem parseBadges_within (a b : Bytes) :
    Within (Steps.parseBadges a b) (a.length * (2 * b.length + 47) + 2 * b.length + 2) fun _ => True := by
  obtain ⟨K, hK⟩ : ∃ K, K = 2 * b.length + 45 := ⟨_, rfl⟩
  rw [show 2 * b.length + 47 = K + 2 by omega, Nat.mul_add]
  unfold Steps.parseBadges
  refine .ite (fun _ => .pure trivial) fun _ => ?_
  refine .bind (P := fun l => l = splitOn COMMA b) (m := a.length * K + a.length * 2 + b.length + 2)
    (.pay (Nat.le_refl _) fun _ e => by cases e; rfl) (fun l _ hl => ?_) (by omega)
  subst hl
  refine .bind (m := a.length * K + a.length * 2 + 1) (cutPieces_within _) (fun info _ hi => ?_)
    (by rw [(splitOn_lengths COMMA b).1]; omega)
  refine .bind (P := fun l => l = splitOn COMMA a) (m := a.length * K + a.length + 1)
    (.pay (Nat.le_refl _) fun _ e => by cases e; rfl) (fun l _ hl => ?_) (by omega)
  subst hl
  refine .bind (m := a.length * K) (cutPieces_within _) (fun list _ hl => ?_)
    (by rw [(splitOn_lengths COMMA a).1]; omega)
  refine (makeBadges_within info list b.length (Nat.le_trans hi (pieces_le ..))).weaken ?_ fun _ h => h
  rw [← hK]
  exact Nat.mul_le_mul_right _ (Nat.le_trans (sum_lengths list) (Nat.le_trans hl (pieces_le ..)))

/-! ### Many badges -/

/-- `x/,x/,..`: so many badges without a version. -/
def many (x : UInt8) : Nat → Bytes
  | 0 => []
  | n + 1 => x :: SLASH :: COMMA :: many x n

theorem many_length (x : UInt8) (n : Nat) : (many x n).length = 3 * n := by
  induction n with
  | zero => rfl
  | succ n ih => simp [many, ih]; omega

theorem many_cut (x : UInt8) (hx : x ≠ COMMA) (hs : x ≠ SLASH) (n : Nat) :
    (splitOn COMMA (many x n)).filterMap (splitOnce SLASH) = List.replicate n ([x], []) := by
  induction n with
  | zero => rfl
  | succ n ih =>
    rw [many, splitOn, if_neg hx, splitOn, if_neg (by decide), splitOn, if_pos rfl]
    show List.filterMap _ ([x, SLASH] :: splitOn COMMA (many x n)) = _
    rw [List.filterMap_cons, ih]
    have : splitOnce SLASH [x, SLASH] = some ([x], []) := by
      rw [splitOnce, find, if_neg hs, find, if_pos rfl]; rfl
    rw [this]; rfl

theorem findInfo_spends (name : Bytes) (x : UInt8) (hx : name ≠ [x]) (n : Nat) :
    Spends (Steps.findInfo name (List.replicate n ([x], []))) fun o k => o = none ∧ n ≤ k := by
  induction n with
  | zero => exact .pure ⟨rfl, Nat.le_refl _⟩
  | succ n ih =>
    rw [List.replicate_succ, Steps.findInfo]
    refine .paid fun b e => ?_
    have hb : b = false := by
      cases e
      cases h : ([x] : Bytes) == name with
      | false => rfl
      | true => exact absurd (eq_of_beq h).symm hx
    subst hb
    exact .ite (fun h => by cases h) fun _ => ih.weaken fun o k h => ⟨h.1, by omega⟩

theorem makeBadges_spends (x y : UInt8) (h : y ≠ x) (n k : Nat) :
    Spends (Steps.makeBadges (List.replicate n ([x], [])) (List.replicate k ([y], []))) fun _ s => k * n ≤ s := by
  induction k with
  | zero => exact .pure (by simp)
  | succ k ih =>
    rw [List.replicate_succ, Steps.makeBadges]
    refine .bind (findInfo_spends [y] x (by simpa using h) n) fun o ho => .paid fun _ _ => .bind ih fun l hl => .pure ?_
    rw [Nat.add_mul]
    omega

theorem parseBadges_many (x y : UInt8) (hx : x ≠ COMMA ∧ x ≠ SLASH) (hy : y ≠ COMMA ∧ y ≠ SLASH) (h : x ≠ y) (n : Nat) :
    Spends (Steps.parseBadges (many x n) (many y n)) fun _ s => n * n ≤ s := by
  unfold Steps.parseBadges
  refine .ite (fun e => .pure ?_) fun _ => ?_
  · have := many_length x n
    rw [e] at this
    have : n = 0 := by simp at this; omega
    subst this
    exact Nat.le_refl _
  · refine .paid fun l e => ?_
    cases e
    refine .bind (P := fun l _ => l = List.replicate n ([y], [])) (fun l e => ?_) fun l hl => ?_
    · rw [cutPieces_out, many_cut y hy.1 hy.2] at e
      cases e; rfl
    subst hl
    refine .paid fun l e => ?_
    cases e
    refine .bind (P := fun l _ => l = List.replicate n ([x], [])) (fun l e => ?_) fun l hl => ?_
    · rw [cutPieces_out, many_cut x hx.1 hx.2] at e
      cases e; rfl
    subst hl
    exact (makeBadges_spends y x h n n).weaken fun _ s h => by omega

end StepsP

end Tmi.Proofs
