/-
Lemmas about JSON texts.
-/
import Verif.Spec.Json
import Verif.Model.Json
import Verif.Proofs.Num
import Verif.Proofs.Debug

namespace Tmi.Proofs
open Tmi.Spec Tmi.Model

/-! ### Strings -/

theorem j_simple {e x : UInt8} (he : e ≠ 0x75) (h : Json.simple e = some x) (t : Bytes) :
    Json.readString (0x5C :: e :: t) = (Json.readString t).map fun (s, r) => (x :: s, r) := by
  rw [Json.readString.eq_def]
  split
  · rename_i heq; cases heq
  · rename_i heq; exact absurd (List.cons.inj heq).1 (by decide)
  · rename_i heq; cases heq
  · rename_i heq
    exact absurd (List.cons.inj (List.cons.inj heq).2).1 he
  · rename_i heq
    obtain ⟨_, h2⟩ := List.cons.inj heq
    obtain ⟨rfl, rfl⟩ := List.cons.inj h2
    rw [h]
  · rename_i heq
    obtain ⟨rfl, rfl⟩ := List.cons.inj heq
    rename_i hne
    exact absurd rfl (hne e t rfl)

theorem j_hex {a b c d x : UInt8} (h : Json.hex4 a b c d = some x.toNat) (hx : x.toNat < 32)
    (he : String.utf8EncodeChar (Char.ofNat x.toNat) = [x]) (t : Bytes) :
    Json.readString (0x5C :: 0x75 :: a :: b :: c :: d :: t) = (Json.readString t).map fun (s, r) => (x :: s, r) := by
  rw [Json.readString.eq_def]
  simp only [h]
  rw [if_neg (by omega), if_neg (by omega), he]
  rfl

/-- The two forms of an escape. -/
def EscapeOk (x : UInt8) : Bool :=
  match Model.Json.escapeByte x with
  | [y, e] => y == 0x5C && e != 0x75 && decide (Json.simple e = some x)
  | [y, u, a, b, c, d] => y == 0x5C && u == 0x75 && decide (Json.hex4 a b c d = some x.toNat) &&
      decide (String.utf8EncodeChar (Char.ofNat x.toNat) = [x])
  | _ => false

theorem j_control (x : UInt8) (hx : x.toNat < 32) (t : Bytes) :
    Json.readString (Model.Json.escapeByte x ++ t) = (Json.readString t).map fun (s, r) => (x :: s, r) := by
  have key : ∀ n : Fin 32, EscapeOk (UInt8.ofNat n.val) = true := by decide +kernel
  have := key ⟨x.toNat, hx⟩
  simp only [UInt8.ofNat_toNat] at this
  unfold EscapeOk at this
  split at this
  · rename_i heq
    simp only [Bool.and_eq_true, beq_iff_eq, bne_iff_ne, decide_eq_true_eq] at this
    obtain ⟨⟨rfl, h1⟩, h2⟩ := this
    rw [heq]
    exact j_simple h1 h2 t
  · rename_i heq
    simp only [Bool.and_eq_true, beq_iff_eq, decide_eq_true_eq] at this
    obtain ⟨⟨⟨rfl, rfl⟩, h1⟩, h2⟩ := this
    rw [heq]
    exact j_hex h1 hx h2 t
  · cases this

theorem j_byte (x : UInt8) (t : Bytes) :
    Json.readString (Model.Json.escapeByte x ++ t) = (Json.readString t).map fun (s, r) => (x :: s, r) := by
  by_cases h0 : x.toNat < 32
  · exact j_control x h0 t
  · by_cases h1 : x = 0x22
    · subst h1; exact j_simple (by decide) (by decide) t
    · by_cases h2 : x = 0x5C
      · subst h2; exact j_simple (by decide) (by decide) t
      · have hne : ∀ y : UInt8, y.toNat < 32 → x ≠ y := by rintro y hy rfl; exact h0 hy
        have e : Model.Json.escapeByte x = [x] := by
          unfold Model.Json.escapeByte
          rw [if_neg h1, if_neg h2, if_neg (hne _ (by decide)), if_neg (hne _ (by decide)), if_neg (hne _ (by decide)),
            if_neg (hne _ (by decide)), if_neg (hne _ (by decide)), if_neg]
          intro h
          exact h0 (UInt8.lt_iff_toNat_lt.1 h)
        rw [e, List.singleton_append, Json.readString.eq_def]
        split
        · rename_i heq; cases heq
        · rename_i heq; exact absurd (List.cons.inj heq).1 h1
        · rename_i heq; exact absurd (List.cons.inj heq).1 h2
        · rename_i heq; exact absurd (List.cons.inj heq).1 h2
        · rename_i heq; exact absurd (List.cons.inj heq).1 h2
        · rename_i heq
          obtain ⟨rfl, rfl⟩ := List.cons.inj heq
          rw [if_neg]
          intro h
          exact h0 (UInt8.lt_iff_toNat_lt.1 h)

theorem j_string (s t : Bytes) : Json.readString (s.flatMap Model.Json.escapeByte ++ 0x22 :: t) = some (s, t) := by
  induction s with
  | nil => rfl
  | cons x s ih => rw [List.flatMap_cons, List.append_assoc, j_byte, ih]; rfl

/-! ### Numbers -/

theorem j_lead : ∀ n : Nat, 0 < n → (showNat n).head? ≠ some 0x30 := by
  intro n
  induction n using Nat.strongRecOn with
  | ind n ih =>
    intro hn
    rw [showNat]
    split
    · rename_i h
      simp only [List.head?_cons, ne_eq, Option.some.injEq]
      intro he
      have := congrArg UInt8.toNat he
      simp at this
      omega
    · rename_i h
      have := ih (n / 10) (by omega) (by omega)
      have hne := (showNat_spec (n / 10)).1.1
      obtain ⟨x, l, he⟩ := List.exists_cons_of_ne_nil hne
      rw [he] at this ⊢
      simpa using this

/-- What comes after a value in a text that was written. -/
def After (r : Bytes) : Prop := r = [] ∨ r.head? = some 0x2C ∨ r.head? = some 0x5D ∨ r.head? = some 0x7D

theorem j_digits {ds r : Bytes} (h : ∀ c ∈ ds, 0x30 ≤ c ∧ c ≤ 0x39) (hr : After r) :
    (ds ++ r).takeWhile Json.isDigit = ds ∧ (ds ++ r).dropWhile Json.isDigit = r := by
  have hd : ∀ c ∈ ds, Json.isDigit c = true := by
    intro c hc
    simp [Json.isDigit, h c hc]
  have h1 : r.takeWhile Json.isDigit = [] ∧ r.dropWhile Json.isDigit = r := by
    cases r with
    | nil => simp
    | cons x r =>
      have : Json.isDigit x = false := by
        rcases hr with h | h | h | h
        · cases h
        all_goals (simp only [List.head?_cons, Option.some.injEq] at h; subst h; decide)
      simp [this]
  rw [List.takeWhile_append_of_pos hd, List.dropWhile_append_of_pos hd, h1.1, h1.2]
  simp

theorem j_nat (n : Nat) {r : Bytes} (hr : After r) : Json.readNat (showNat n ++ r) = some (n, r) := by
  obtain ⟨⟨h0, h1⟩, h2⟩ := showNat_spec n
  obtain ⟨e1, e2⟩ := j_digits h1 hr
  unfold Json.readNat
  simp only [e1, e2]
  rw [if_neg h0, if_neg, if_neg, h2]
  · rcases hr with h | h | h | h
    · subst h; simp
    all_goals (rw [h]; decide)
  · rintro ⟨ha, hb⟩
    by_cases hz : n = 0
    · subst hz; exact hb (by rw [showNat]; rfl)
    · exact j_lead n (by omega) ha

theorem j_int (n : Int) {r : Bytes} (hr : After r) : Json.readInt (Model.Json.number n ++ r) = some (n, r) := by
  unfold Model.Json.number
  simp only [decNat_eq]
  by_cases h : n < 0
  · rw [if_pos h, List.cons_append]
    unfold Json.readInt
    simp only [j_nat _ hr, Option.bind_some]
    rw [if_neg (by omega)]
    congr 2
    omega
  · rw [if_neg h]
    obtain ⟨⟨h0, h1⟩, _⟩ := showNat_spec n.natAbs
    obtain ⟨x, l, he⟩ := List.exists_cons_of_ne_nil h0
    have hx : x ≠ 0x2D := by
      rintro rfl
      have := (h1 0x2D (by rw [he]; simp)).1
      revert this
      decide
    have := j_nat n.natAbs hr
    rw [he] at this ⊢
    rw [List.cons_append] at this ⊢
    unfold Json.readInt
    split
    · rename_i heq; exact absurd (List.cons.inj heq).1 hx
    · rw [this]
      simp only [Option.map_some, Option.some.injEq, Prod.mk.injEq, and_true]
      omega

theorem j_number_head (n : Int) : ∃ x l, Model.Json.number n = x :: l ∧ (x = 0x2D ∨ Json.isDigit x = true) := by
  unfold Model.Json.number
  simp only [decNat_eq]
  split
  · exact ⟨_, _, rfl, .inl rfl⟩
  · obtain ⟨⟨h0, h1⟩, _⟩ := showNat_spec n.natAbs
    obtain ⟨x, l, he⟩ := List.exists_cons_of_ne_nil h0
    refine ⟨x, l, he, .inr ?_⟩
    have := h1 x (by rw [he]; simp)
    simp [Json.isDigit, this]

/-! ### Values -/

theorem blank_cons {x : UInt8} (h : 0x20 < x) (t : Bytes) : Json.blank (x :: t) = x :: t := by
  unfold Json.blank
  rw [List.dropWhile_cons_of_neg]
  have hn : ∀ y : UInt8, y ≤ 0x20 → (x == y) = false := by
    intro y hy
    rw [beq_eq_false_iff_ne]
    rintro rfl
    exact absurd h (UInt8.not_lt.2 hy)
  rw [hn _ (by decide), hn _ (by decide), hn _ (by decide), hn _ (by decide)]
  simp

/-- The first byte of a value. -/
theorem text_head (v : Value) : ∃ x l, Model.Json.text v = x :: l ∧ 0x20 < x ∧ x ≠ 0x5D ∧ x ≠ 0x7D := by
  match v with
  | .null => exact ⟨_, _, rfl, by decide, by decide, by decide⟩
  | .bool true => exact ⟨_, _, rfl, by decide, by decide, by decide⟩
  | .bool false => exact ⟨_, _, rfl, by decide, by decide, by decide⟩
  | .num n =>
    obtain ⟨x, l, he, hx⟩ := j_number_head n
    refine ⟨x, l, by rw [Model.Json.text, he], ?_⟩
    rcases hx with rfl | hx
    · decide
    · simp only [Json.isDigit, Bool.and_eq_true, decide_eq_true_eq] at hx
      refine ⟨UInt8.lt_of_lt_of_le (by decide) hx.1, ?_, ?_⟩ <;> (rintro rfl; revert hx; decide)
  | .str s => exact ⟨_, _, by rw [Model.Json.text, Model.Json.quote], by decide, by decide, by decide⟩
  | .seq l => exact ⟨_, _, by rw [Model.Json.text], by decide, by decide, by decide⟩
  | .map l => exact ⟨_, _, by rw [Model.Json.text], by decide, by decide, by decide⟩

theorem after_elems (vs : List Value) (r : Bytes) : After (Model.Json.elems false vs ++ 0x5D :: r) := by
  cases vs with
  | nil => exact .inr (.inr (.inl (by simp [Model.Json.elems])))
  | cons v vs => exact .inr (.inl (by simp [Model.Json.elems]))

theorem after_entries (kvs : List (Bytes × Value)) (r : Bytes) : After (Model.Json.entries false kvs ++ 0x7D :: r) := by
  cases kvs with
  | nil => exact .inr (.inr (.inr (by simp [Model.Json.entries])))
  | cons kv kvs => obtain ⟨k, v⟩ := kv; exact .inr (.inl (by simp [Model.Json.entries]))

mutual

theorem j_value : ∀ (v : Value) (n : Nat) (r : Bytes), (Model.Json.text v).length < n → After r →
    Json.readValue n (Model.Json.text v ++ r) = some (v, r)
  | v, 0, r, hn, _ => absurd hn (by omega)
  | .null, n + 1, r, _, _ => by
    rw [Model.Json.text]
    rfl
  | .bool true, n + 1, r, _, _ => by
    rw [Model.Json.text]
    rfl
  | .bool false, n + 1, r, _, _ => by
    rw [Model.Json.text]
    rfl
  | .num k, n + 1, r, _, hr => by
    obtain ⟨x, l, he, hx⟩ := j_number_head k
    have hh := j_int k hr
    obtain ⟨x', l', he', h1, h2, h3⟩ := text_head (.num k)
    rw [Model.Json.text] at he' ⊢
    rw [he] at he' hh ⊢
    obtain ⟨rfl, rfl⟩ := List.cons.inj he'
    rw [List.cons_append] at hh ⊢
    rw [Json.readValue, blank_cons h1]
    have a1 : x ≠ 0x22 := by rintro rfl; revert hx; decide
    have a2 : x ≠ 0x5B := by rintro rfl; revert hx; decide
    have a3 : x ≠ 0x7B := by rintro rfl; revert hx; decide
    simp only [a1, a2, a3, hx, if_false, if_true, hh]
    rfl
  | .str s, n + 1, r, _, _ => by
    rw [Model.Json.text, Model.Json.quote, List.cons_append, Json.readValue, blank_cons (by decide), List.append_assoc,
      List.singleton_append]
    simp only [if_true, j_string]
    rfl
  | .seq [], n + 1, r, _, _ => by
    rw [Model.Json.text, Model.Json.elems]
    rfl
  | .seq (v :: vs), n + 1, r, hn, _ => by
    rw [Model.Json.text, Model.Json.elems] at hn ⊢
    simp only [if_true, List.nil_append, List.append_assoc, List.cons_append, List.length_cons, List.length_append, List.length_nil] at hn ⊢
    rw [Json.readValue, blank_cons (by decide)]
    obtain ⟨x, l, he, h1, h2, h3⟩ := text_head v
    have hb : (Json.blank (Model.Json.text v ++ (Model.Json.elems false vs ++ 0x5D :: r))).head? ≠ some 0x5D := by
      rw [he, List.cons_append, blank_cons h1]
      simpa using h2
    simp only [show ((0x5B : UInt8) = 0x22) = False by decide, if_false, if_true, hb]
    rw [j_value v n _ (by omega) (after_elems vs r)]
    simp only
    rw [j_elems vs n r (by omega)]
    rfl
  | .map [], n + 1, r, _, _ => by
    rw [Model.Json.text, Model.Json.entries]
    rfl
  | .map ((k, v) :: kvs), n + 1, r, hn, _ => by
    rw [Model.Json.text, Model.Json.entries] at hn ⊢
    simp only [if_true, List.nil_append, List.append_assoc, List.cons_append, List.length_cons, List.length_append, List.length_nil] at hn ⊢
    rw [Json.readValue, blank_cons (by decide)]
    have hb : (Json.blank (Model.Json.quote k ++ 0x3A :: (Model.Json.text v ++ (Model.Json.entries false kvs ++ 0x7D :: r)))).head? ≠
        some 0x7D := by
      rw [Model.Json.quote, List.cons_append, blank_cons (by decide)]
      simp
    simp only [show ((0x7B : UInt8) = 0x22) = False by decide, show ((0x7B : UInt8) = 0x5B) = False by decide, if_false, if_true, hb]
    rw [j_entry (k, v) n _ (by simp only; omega) (after_entries kvs r)]
    simp only
    rw [j_entries kvs n r (by omega)]
    rfl

theorem j_elems : ∀ (vs : List Value) (n : Nat) (r : Bytes), (Model.Json.elems false vs).length < n →
    Json.readElems n (Model.Json.elems false vs ++ 0x5D :: r) = some (vs, r)
  | vs, 0, r, hn => absurd hn (by omega)
  | [], n + 1, r, _ => by
    rw [Model.Json.elems]
    rfl
  | v :: vs, n + 1, r, hn => by
    rw [Model.Json.elems] at hn ⊢
    simp only [Bool.false_eq_true, if_false, List.append_assoc, List.cons_append, List.nil_append, List.length_cons, List.length_append, List.length_nil] at hn ⊢
    rw [Json.readElems, blank_cons (by decide)]
    simp only [show ((0x2C : UInt8) = 0x5D) = False by decide, if_false, if_true]
    rw [j_value v n _ (by omega) (after_elems vs r)]
    simp only
    rw [j_elems vs n r (by omega)]
    rfl

theorem j_entry : ∀ (kv : Bytes × Value) (n : Nat) (r : Bytes), (Model.Json.quote kv.1).length + (Model.Json.text kv.2).length < n →
    After r → Json.readEntry n (Model.Json.quote kv.1 ++ 0x3A :: (Model.Json.text kv.2 ++ r)) = some (kv, r)
  | (k, v), 0, r, hn, _ => absurd hn (by omega)
  | (k, v), n + 1, r, hn, hr => by
    simp only at hn ⊢
    have hq : 2 ≤ (Model.Json.quote k).length := by simp [Model.Json.quote]
    rw [Model.Json.quote, List.cons_append, Json.readEntry, blank_cons (by decide), List.append_assoc, List.singleton_append]
    simp only [if_true, j_string, blank_cons (show (0x20 : UInt8) < 0x3A by decide)]
    rw [j_value v n r (by omega) hr]
    rfl

theorem j_entries : ∀ (kvs : List (Bytes × Value)) (n : Nat) (r : Bytes), (Model.Json.entries false kvs).length < n →
    Json.readEntries n (Model.Json.entries false kvs ++ 0x7D :: r) = some (kvs, r)
  | kvs, 0, r, hn => absurd hn (by omega)
  | [], n + 1, r, _ => by
    rw [Model.Json.entries]
    rfl
  | (k, v) :: kvs, n + 1, r, hn => by
    rw [Model.Json.entries] at hn ⊢
    simp only [Bool.false_eq_true, if_false, List.append_assoc, List.cons_append, List.nil_append, List.length_cons, List.length_append, List.length_nil] at hn ⊢
    rw [Json.readEntries, blank_cons (by decide)]
    simp only [show ((0x2C : UInt8) = 0x7D) = False by decide, if_false, if_true]
    rw [j_entry (k, v) n _ (by simp only; omega) (after_entries kvs r)]
    simp only
    rw [j_entries kvs n r (by omega)]
    rfl

end

theorem j_read (v : Value) : Json.read (Model.Json.text v) = some v := by
  have := j_value v ((Model.Json.text v).length + 1) [] (by omega) (.inl rfl)
  rw [List.append_nil] at this
  rw [Json.read, this]
  rfl

/-! ### The bytes of a text -/

theorem escape_bytes (x : UInt8) : ∀ y ∈ Model.Json.escapeByte x, 0x20 ≤ y := by
  have key : ∀ n : Fin 256, ∀ y ∈ Model.Json.escapeByte (UInt8.ofNat n.val), 0x20 ≤ y := by decide +kernel
  have := key ⟨x.toNat, x.toNat_lt⟩
  simpa using this

theorem quote_bytes (s : Bytes) : ∀ y ∈ Model.Json.quote s, 0x20 ≤ y := by
  intro y hy
  simp only [Model.Json.quote, List.mem_cons, List.mem_append, List.mem_flatMap, List.not_mem_nil, or_false] at hy
  rcases hy with rfl | ⟨x, _, hx⟩ | rfl
  · decide
  · exact escape_bytes x y hx
  · decide

theorem number_bytes (n : Int) : ∀ y ∈ Model.Json.number n, 0x20 ≤ y := by
  unfold Model.Json.number
  simp only [decNat_eq]
  have h1 := (showNat_spec n.natAbs).1.2
  have h2 : ∀ y ∈ showNat n.natAbs, 0x20 ≤ y := fun y hy => UInt8.le_trans (by decide) (h1 y hy).1
  split
  · intro y hy
    rcases List.mem_cons.1 hy with rfl | h
    · decide
    · exact h2 y h
  · exact h2

mutual

theorem text_bytes : ∀ v : Value, ∀ y ∈ Model.Json.text v, 0x20 ≤ y
  | .null => by rw [Model.Json.text]; decide
  | .bool true => by rw [Model.Json.text]; decide
  | .bool false => by rw [Model.Json.text]; decide
  | .num n => by rw [Model.Json.text]; exact number_bytes n
  | .str s => by rw [Model.Json.text]; exact quote_bytes s
  | .seq l => by
    rw [Model.Json.text]
    intro y hy
    simp only [List.mem_cons, List.mem_append, List.not_mem_nil, or_false] at hy
    rcases hy with rfl | h | rfl
    · decide
    · exact elems_bytes l true y h
    · decide
  | .map l => by
    rw [Model.Json.text]
    intro y hy
    simp only [List.mem_cons, List.mem_append, List.not_mem_nil, or_false] at hy
    rcases hy with rfl | h | rfl
    · decide
    · exact entries_bytes l true y h
    · decide

theorem elems_bytes : ∀ (l : List Value) (f : Bool), ∀ y ∈ Model.Json.elems f l, 0x20 ≤ y
  | [], f => by rw [Model.Json.elems]; simp
  | v :: vs, f => by
    rw [Model.Json.elems]
    intro y hy
    rcases List.mem_append.1 hy with h | h
    · rcases List.mem_append.1 h with h | h
      · cases f <;> simp at h
        subst h; decide
      · exact text_bytes v y h
    · exact elems_bytes vs false y h

theorem entries_bytes : ∀ (l : List (Bytes × Value)) (f : Bool), ∀ y ∈ Model.Json.entries f l, 0x20 ≤ y
  | [], f => by rw [Model.Json.entries]; simp
  | (k, v) :: kvs, f => by
    rw [Model.Json.entries]
    intro y hy
    simp only [List.mem_append] at hy
    rcases hy with (((h | h) | h) | h) | h
    · cases f <;> simp at h
      subst h; decide
    · exact quote_bytes k y h
    · simp at h; subst h; decide
    · exact text_bytes v y h
    · exact entries_bytes kvs false y h

end

end Tmi.Proofs
