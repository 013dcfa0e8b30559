/-
Lemmas for Props/Keys.
-/
import Verif.Spec.Keys
import Verif.Proofs.Utf8

namespace Tmi.Proofs
open Tmi Model Spec

theorem strCmp_eq : ∀ a b : Bytes, strCmp a b = .eq ↔ a = b
  | [], [] => by simp [strCmp]
  | [], _ :: _ => by simp [strCmp]
  | _ :: _, [] => by simp [strCmp]
  | x :: a, y :: b => by
    unfold strCmp
    by_cases h1 : x.toNat < y.toNat
    · rw [if_pos h1]
      constructor
      · intro h; cases h
      · intro h; injection h with h _; subst h; omega
    · rw [if_neg h1]
      by_cases h2 : y.toNat < x.toNat
      · rw [if_pos h2]
        constructor
        · intro h; cases h
        · intro h; injection h with h _; subst h; omega
      · rw [if_neg h2]
        have : x = y := UInt8.toNat_inj.mp (by omega)
        subst this
        rw [strCmp_eq a b]
        simp

theorem strCmp_swap : ∀ a b : Bytes, strCmp b a = (strCmp a b).swap
  | [], [] => rfl
  | [], _ :: _ => rfl
  | _ :: _, [] => rfl
  | x :: a, y :: b => by
    unfold strCmp
    by_cases h1 : x.toNat < y.toNat
    · rw [if_pos h1, if_neg (by omega), if_pos h1]; rfl
    · by_cases h2 : y.toNat < x.toNat
      · rw [if_pos h2, if_neg h1, if_pos h2]; rfl
      · rw [if_neg h2, if_neg h1, if_neg h1, if_neg h2]
        exact strCmp_swap a b

theorem strCmp_lt : ∀ a b : Bytes, strCmp a b = .lt ↔ Before a b
  | [], [] => by
    simp [strCmp, Before]
  | [], y :: b => by
    simp [strCmp, Before]
  | x :: a, [] => by
    simp [strCmp, Before]
  | x :: a, y :: b => by
    unfold strCmp
    by_cases h1 : x.toNat < y.toNat
    · rw [if_pos h1]
      simp only [true_iff]
      exact .inr ⟨[], x, y, a, b, rfl, rfl, h1⟩
    · rw [if_neg h1]
      by_cases h2 : y.toNat < x.toNat
      · rw [if_pos h2]
        refine ⟨fun h => (by cases h), ?_⟩
        rintro (⟨z, t, h⟩ | ⟨p, u, v, s, t, ha, hb, hlt⟩)
        · injection h with h _; subst h; omega
        · cases p with
          | nil => injection ha with ha _; injection hb with hb _; subst ha hb; omega
          | cons w p => injection ha with ha _; injection hb with hb _; subst ha hb; omega
      · rw [if_neg h2]
        have : x = y := UInt8.toNat_inj.mp (by omega)
        subst this
        rw [strCmp_lt a b]
        constructor
        · rintro (⟨z, t, h⟩ | ⟨p, u, v, s, t, ha, hb, hlt⟩)
          · exact .inl ⟨z, t, by rw [h]; rfl⟩
          · exact .inr ⟨x :: p, u, v, s, t, by rw [ha]; rfl, by rw [hb]; rfl, hlt⟩
        · rintro (⟨z, t, h⟩ | ⟨p, u, v, s, t, ha, hb, hlt⟩)
          · injection h with _ h
            exact .inl ⟨z, t, h⟩
          · cases p with
            | nil => injection ha with ha _; injection hb with hb _; subst ha hb; omega
            | cons w p =>
              injection ha with _ ha; injection hb with _ hb
              exact .inr ⟨p, u, v, s, t, ha, hb, hlt⟩

theorem strCmp_trans : ∀ a b c : Bytes, strCmp a b = .lt → strCmp b c = .lt → strCmp a c = .lt
  | [], _, [] => by
    intro h1 h2
    cases ‹Bytes› with
    | nil => cases h1
    | cons => cases h2
  | [], _, _ :: _ => fun _ _ => rfl
  | _ :: _, [], _ => fun h => by cases h
  | _ :: _, _ :: _, [] => fun _ h => by cases h
  | x :: a, y :: b, z :: c => by
    unfold strCmp
    intro h1 h2
    by_cases hxy : x.toNat < y.toNat
    · by_cases hyz : y.toNat < z.toNat
      · rw [if_pos (by omega)]
      · rw [if_neg hyz] at h2
        by_cases hzy : z.toNat < y.toNat
        · rw [if_pos hzy] at h2; cases h2
        · rw [if_pos (by omega)]
    · rw [if_neg hxy] at h1
      by_cases hyx : y.toNat < x.toNat
      · rw [if_pos hyx] at h1; cases h1
      · rw [if_neg hyx] at h1
        by_cases hyz : y.toNat < z.toNat
        · rw [if_pos (by omega)]
        · rw [if_neg hyz] at h2
          by_cases hzy : z.toNat < y.toNat
          · rw [if_pos hzy] at h2; cases h2
          · rw [if_neg hzy] at h2
            rw [if_neg (by omega), if_neg (by omega)]
            exact strCmp_trans a b c h1 h2

theorem strTotal : TotalOrder strCmp := ⟨strCmp_eq, strCmp_swap, strCmp_trans⟩

/-- The derived order of an enum: by position, then by the field. -/
def enumCmp {α : Type} (idx : α → Nat) (field : α → Option Bytes) (a b : α) : Ordering :=
  (compare (idx a) (idx b)).then
    (match field a, field b with
     | some x, some y => strCmp x y
     | _, _ => .eq)

theorem enumTotal {α : Type} (idx : α → Nat) (field : α → Option Bytes)
    (inj : ∀ a b, idx a = idx b → field a = field b → a = b)
    (shape : ∀ a b, idx a = idx b → (field a).isSome = (field b).isSome) :
    TotalOrder (enumCmp idx field) := by
  refine ⟨?_, ?_, ?_⟩
  · intro a b
    unfold enumCmp
    rw [Ordering.then_eq_eq, Nat.compare_eq_eq]
    constructor
    · rintro ⟨h1, h2⟩
      refine inj a b h1 ?_
      have hs := shape a b h1
      cases hx : field a <;> cases hy : field b <;> rw [hx, hy] at hs h2
      · cases hs
      · cases hs
      · rw [(strCmp_eq _ _).mp h2]
    · rintro rfl
      refine ⟨rfl, ?_⟩
      cases field a with
      | none => rfl
      | some x => exact (strCmp_eq x x).mpr rfl
  · intro a b
    unfold enumCmp
    rw [Ordering.swap_then, Nat.compare_swap]
    congr 1
    cases field a <;> cases field b <;> first | rfl | exact strCmp_swap _ _
  · intro a b c h1 h2
    unfold enumCmp at *
    rw [Ordering.then_eq_lt] at *
    rw [Nat.compare_eq_lt, Nat.compare_eq_eq] at *
    rcases h1 with h1 | ⟨h1, h1'⟩
    · rcases h2 with h2 | ⟨h2, h2'⟩
      · exact .inl (by omega)
      · exact .inl (by omega)
    · rcases h2 with h2 | ⟨h2, h2'⟩
      · exact .inl (by omega)
      · refine .inr ⟨by omega, ?_⟩
        cases hx : field a <;> cases hy : field b <;> cases hz : field c <;> simp only [hx, hy, hz] at h1' h2' <;>
          first
            | cases h1'
            | cases h2'
            | exact strCmp_trans _ _ _ h1' h2'

/-! The variants. -/

theorem tag_at (t : Tag) (h : t.field = none) : (tagTable[t.ctorIdx]?).map Prod.snd = some t := by
  cases t with
  | unknown k => cases h
  | _ => rfl

theorem tag_known_lt (t : Tag) : t.ctorIdx = tagTable.length ↔ t.field.isSome = true := by
  cases t with
  | unknown k => exact ⟨fun _ => rfl, fun _ => rfl⟩
  | _ => exact ⟨fun h => absurd h (by decide), fun h => by cases h⟩

theorem tag_shape (a b : Tag) (h : a.ctorIdx = b.ctorIdx) : a.field.isSome = b.field.isSome := by
  have ha := tag_known_lt a
  have hb := tag_known_lt b
  rw [h] at ha
  exact Bool.eq_iff_iff.mpr (ha.symm.trans hb)

theorem tag_inj (a b : Tag) (h : a.ctorIdx = b.ctorIdx) (hf : a.field = b.field) : a = b := by
  cases ha : a.field with
  | none =>
    have h1 := tag_at a ha
    have h2 := tag_at b (by rw [← hf, ha])
    rw [h] at h1
    exact Option.some.inj (h1.symm.trans h2)
  | some k =>
    have hb : b.field = some k := by rw [← hf, ha]
    have key : ∀ t : Tag, t.field = some k → t = .unknown k := by
      intro t ht
      cases t with
      | unknown k' => exact congrArg _ (Option.some.inj ht)
      | _ => cases ht
    rw [key a ha, key b hb]

theorem command_inj (a b : Command) (h : a.ctorIdx = b.ctorIdx) (hf : a.field = b.field) : a = b := by
  cases a <;> cases b <;> first | rfl | (cases h; done) | (cases hf; rfl)

theorem command_shape (a b : Command) (h : a.ctorIdx = b.ctorIdx) : a.field.isSome = b.field.isSome := by
  cases a <;> cases b <;> first | rfl | (cases h; done)

theorem tagTotal : TotalOrder Tag.cmp := enumTotal Tag.ctorIdx Tag.field tag_inj tag_shape
theorem commandTotal : TotalOrder Command.cmp := enumTotal Command.ctorIdx Command.field command_inj command_shape

theorem tag_eq_iff (a b : Tag) : a.eq b = true ↔ a = b := by
  unfold Tag.eq
  rw [Bool.and_eq_true, beq_iff_eq, beq_iff_eq]
  exact ⟨fun ⟨h1, h2⟩ => tag_inj a b h1 h2, by rintro rfl; exact ⟨rfl, rfl⟩⟩

theorem command_eq_iff (a b : Command) : a.eq b = true ↔ a = b := by
  unfold Command.eq
  rw [Bool.and_eq_true, beq_iff_eq, beq_iff_eq]
  exact ⟨fun ⟨h1, h2⟩ => command_inj a b h1 h2, by rintro rfl; exact ⟨rfl, rfl⟩⟩

/-! Hashing. -/

theorem enc_no_ff (c : Char) : ∀ y ∈ String.utf8EncodeChar c, y.toNat < 255 := by
  unfold String.utf8EncodeChar
  simp only []
  have hv : c.val.toNat < 1114112 := by
    have := c.valid
    rcases this with h | h <;> omega
  generalize c.val.toNat = v at hv
  split
  · simp; omega
  · split
    · simp; omega
    · split
      · simp; omega
      · simp; omega

theorem utf8_no_ff {s : Bytes} (h : Utf8 s) : (255 : UInt8) ∉ s := by
  obtain ⟨cs, rfl⟩ := h
  intro hm
  rw [List.mem_flatMap] at hm
  obtain ⟨c, _, hc⟩ := hm
  have := enc_no_ff c _ hc
  exact absurd this (by decide)

/-- Two strings followed by a byte that is in neither. -/
theorem append_sep_inj {x : UInt8} : ∀ {a b r q : Bytes}, x ∉ a → x ∉ b → a ++ x :: r = b ++ x :: q → a = b ∧ r = q
  | [], [], _, _, _, _, h => by injection h with _ h; exact ⟨rfl, h⟩
  | [], y :: b, _, _, _, hb, h => by injection h with h _; subst h; exact absurd (List.mem_cons_self ..) hb
  | y :: a, [], _, _, ha, _, h => by injection h with h _; subst h; exact absurd (List.mem_cons_self ..) ha
  | y :: a, z :: b, r, q, ha, hb, h => by
    injection h with h1 h2
    subst h1
    obtain ⟨h, h'⟩ := append_sep_inj (fun m => ha (List.mem_cons_of_mem _ m)) (fun m => hb (List.mem_cons_of_mem _ m)) h2
    exact ⟨by rw [h], h'⟩

theorem strHash_fed {a b r q : Bytes} (ha : Utf8 a) (hb : Utf8 b) (h : fed (strHash a) ++ r = fed (strHash b) ++ q) :
    a = b ∧ r = q := by
  have e : ∀ s t : Bytes, fed (strHash s) ++ t = s ++ (255 : UInt8) :: t := by
    intro s t
    simp [strHash, fed]
  rw [e, e] at h
  exact append_sep_inj (utf8_no_ff ha) (utf8_no_ff hb) h

theorem fed_append (x y : List HashCall) : fed (x ++ y) = fed x ++ fed y := by
  induction x with
  | nil => rfl
  | cons c x ih => cases c <;> simp [fed, ih]

/-- The derived hash of an enum: the position, then the field. -/
def enumHash {α : Type} (idx : α → Nat) (field : α → Option Bytes) (a : α) : List HashCall :=
  .discr (idx a) :: (match field a with | some x => strHash x | none => [])

theorem enumHash_fed {α : Type} (idx : α → Nat) (field : α → Option Bytes)
    (inj : ∀ a b, idx a = idx b → field a = field b → a = b)
    (shape : ∀ a b, idx a = idx b → (field a).isSome = (field b).isSome)
    (small : ∀ a, idx a < 256) (a b : α) (ha : ∀ x, field a = some x → Utf8 x) (hb : ∀ x, field b = some x → Utf8 x)
    (r q : Bytes) (h : fed (enumHash idx field a) ++ r = fed (enumHash idx field b) ++ q) : a = b ∧ r = q := by
  have e : ∀ n cs, fed (.discr n :: cs) = (List.range 8).map (fun i => UInt8.ofNat (n / 256 ^ i)) ++ fed cs := fun _ _ => rfl
  unfold enumHash at h
  rw [e, e, List.append_assoc, List.append_assoc] at h
  obtain ⟨h1, h2⟩ := List.append_inj h (by simp)
  have hidx : idx a = idx b := by
    have h0 := congrArg List.head? h1
    simp [List.range_succ] at h0
    have := congrArg UInt8.toNat h0
    simp at this
    have := small a; have := small b
    omega
  have hs := shape a b hidx
  cases hx : field a with
  | none =>
    cases hy : field b with
    | none =>
      rw [hx, hy] at h2
      exact ⟨inj a b hidx (by rw [hx, hy]), h2⟩
    | some y => rw [hx, hy] at hs; cases hs
  | some x =>
    cases hy : field b with
    | none => rw [hx, hy] at hs; cases hs
    | some y =>
      rw [hx, hy] at h2
      obtain ⟨h3, h4⟩ := strHash_fed (ha x hx) (hb y hy) h2
      exact ⟨inj a b hidx (by rw [hx, hy, h3]), h4⟩

theorem tag_small (t : Tag) : t.ctorIdx < 256 := by
  cases t with
  | unknown k => exact (by decide : tagTable.length < 256)
  | _ => decide

theorem command_small (c : Command) : c.ctorIdx < 256 := by
  cases c with
  | other k => exact (by decide : 24 < 256)
  | _ => decide

/-! Parsing is injective. -/

theorem tag_parse_inj (s t : Bytes) : Tag.parse s = Tag.parse t ↔ s = t := by
  constructor
  · intro h
    have hfst : ∀ row ∈ tagTable, Tag.parse row.1 = row.2 := by decide +kernel
    have hnodup : ∀ r1 ∈ tagTable, ∀ r2 ∈ tagTable, r1.2 = r2.2 → r1.1 = r2.1 := by decide +kernel
    have hknown : ∀ row ∈ tagTable, row.2.field = none := by decide +kernel
    unfold Tag.parse at h
    cases hs : tagTable.find? fun row => row.1 == s with
    | none =>
      cases ht : tagTable.find? fun row => row.1 == t with
      | none => rw [hs, ht] at h; injection h
      | some r =>
        rw [hs, ht] at h
        have h' := hknown r (List.mem_of_find?_eq_some ht)
        simp only at h
        rw [← h] at h'
        cases h'
    | some q =>
      have hq := List.find?_some hs
      cases ht : tagTable.find? fun row => row.1 == t with
      | none =>
        rw [hs, ht] at h
        have h' := hknown q (List.mem_of_find?_eq_some hs)
        simp only at h
        rw [h] at h'
        cases h'
      | some r =>
        have hr := List.find?_some ht
        rw [hs, ht] at h
        simp only at h
        have h' := hnodup q (List.mem_of_find?_eq_some hs) r (List.mem_of_find?_eq_some ht) h
        rw [beq_iff_eq] at hq hr
        rw [← hq, ← hr, h']
  · rintro rfl; rfl

end Tmi.Proofs
