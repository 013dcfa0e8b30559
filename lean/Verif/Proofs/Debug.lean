/-
The texts that `Debug` prints can be read back.
-/
import Verif.Model.Debug
import Verif.Proofs.Escape
import Verif.Proofs.Num
import Verif.Props.Config

namespace Tmi.Proofs
open Model Spec

/-! ### Words -/

theorem span_eq (P : UInt8 → Bool) : ∀ (w w' r r' : Bytes), (∀ x ∈ w, P x = true) → (∀ x ∈ w', P x = true) →
    (∀ c, r.head? = some c → P c = false) → (∀ c, r'.head? = some c → P c = false) →
    w ++ r = w' ++ r' → w = w' ∧ r = r'
  | [], [], _, _, _, _, _, _, h => ⟨rfl, h⟩
  | [], y :: w', r, r', _, h2, h3, _, h => by
    have h0 : r = y :: (w' ++ r') := h
    have := h3 y (by rw [h0]; rfl)
    rw [h2 y (by simp)] at this
    exact absurd this (by decide)
  | x :: w, [], r, r', h1, _, _, h4, h => by
    have h0 : x :: (w ++ r) = r' := h
    have := h4 x (by rw [← h0]; rfl)
    rw [h1 x (by simp)] at this
    exact absurd this (by decide)
  | x :: w, y :: w', r, r', h1, h2, h3, h4, h => by
    rw [List.cons_append, List.cons_append, List.cons.injEq] at h
    obtain ⟨rfl, h⟩ := h
    obtain ⟨rfl, h'⟩ := span_eq P w w' r r' (fun x hx => h1 x (by simp [hx])) (fun x hx => h2 x (by simp [hx])) h3 h4 h
    exact ⟨rfl, h'⟩

/-! ### Numbers -/

theorem decNat_eq (n : Nat) : decNat n = showNat n := Props.toDigits_showNat n

theorem decNat_inj {a b : Nat} (h : decNat a = decNat b) : a = b := by
  rw [decNat_eq, decNat_eq] at h
  rw [← (showNat_spec a).2, h, (showNat_spec b).2]

/-- The value of a hexadecimal digit. -/
def hexDigit (c : UInt8) : Nat := if c < 0x61 then c.toNat - 48 else c.toNat - 87

/-- The value of hexadecimal digits. -/
def hexVal (s : Bytes) : Nat := s.foldl (fun n c => n * 16 + hexDigit c) 0

theorem hex_spec (n : Nat) : (∀ x ∈ hex n, 0x30 ≤ x ∧ x ≤ 0x66) ∧ hexVal (hex n) = n := by
  induction n using Nat.strongRecOn with
  | _ n ih =>
    by_cases h : n < 16
    · have : ∀ m : Fin 16, (∀ x ∈ hex m.1, 0x30 ≤ x ∧ x ≤ 0x66) ∧ hexVal (hex m.1) = m.1 := by decide +kernel
      exact this ⟨n, h⟩
    · have e : hex n = hex (n / 16) ++ [(Nat.digitChar (n % 16)).val.toUInt8] := by
        unfold hex
        rw [Nat.toDigits_of_base_le (by omega) (by omega), List.map_append]
        rfl
      have : ∀ m : Fin 16, (0x30 ≤ (Nat.digitChar m.1).val.toUInt8 ∧ (Nat.digitChar m.1).val.toUInt8 ≤ 0x66) ∧
          hexDigit (Nat.digitChar m.1).val.toUInt8 = m.1 := by decide +kernel
      have hd := this ⟨n % 16, Nat.mod_lt _ (by omega)⟩
      obtain ⟨h1, h2⟩ := ih (n / 16) (by omega)
      rw [e]
      constructor
      · intro x hx
        rw [List.mem_append, List.mem_singleton] at hx
        rcases hx with hx | rfl
        · exact h1 x hx
        · exact hd.1
      · unfold hexVal at h2 ⊢
        rw [List.foldl_append, h2, List.foldl_cons, List.foldl_nil, hd.2]
        show n / 16 * 16 + n % 16 = n
        omega

/-! ### Strings -/

theorem utf8_prefix {c d : Char} {x y : Bytes}
    (h : String.utf8EncodeChar c ++ x = String.utf8EncodeChar d ++ y) : c = d ∧ x = y := by
  have h' := congrArg decode h
  rw [decode_char, decode_char, List.cons.injEq] at h'
  obtain ⟨rfl, _⟩ := h'
  exact ⟨rfl, List.append_cancel_left h⟩

theorem decode_lt {a : UInt8} {t : Bytes} (h : a < 0x80) : decode (a :: t) = Char.ofNat a.toNat :: decode t := by
  rw [decode.eq_def]
  dsimp only
  rw [if_pos h]

/-- The character an escaped character starts with, and the rest of the text. -/
def readChar (s : Bytes) : Option (Char × Bytes) :=
  match s with
  | [] => none
  | a :: t =>
    if a = 0x5C then
      match t with
      | [] => none
      | k :: t =>
        if k = 0x30 then some (Char.ofNat 0, t)
        else if k = 0x74 then some (Char.ofNat 9, t)
        else if k = 0x72 then some (Char.ofNat 13, t)
        else if k = 0x6E then some (Char.ofNat 10, t)
        else if k = 0x22 then some (Char.ofNat 34, t)
        else if k = 0x5C then some (Char.ofNat 92, t)
        else some (Char.ofNat (hexVal ((t.drop 1).takeWhile (· != 0x7D))), ((t.drop 1).dropWhile (· != 0x7D)).drop 1)
    else
      match decode (a :: t) with
      | [] => none
      | c :: _ => some (c, (a :: t).drop (String.utf8EncodeChar c).length)

theorem char_of_val (c : Char) : Char.ofNat c.val.toNat = c := Char.ofNat_toNat c

theorem takeWhile_close (w r : Bytes) (h : ∀ x ∈ w, 0x30 ≤ x ∧ x ≤ 0x66) :
    (w ++ 0x7D :: r).takeWhile (· != 0x7D) = w ∧ (w ++ 0x7D :: r).dropWhile (· != 0x7D) = 0x7D :: r := by
  have hw : ∀ x ∈ w, (x != 0x7D) = true := by
    intro x hx
    have := (h x hx).2
    rw [bne_iff_ne]
    rintro rfl
    exact absurd this (by decide)
  rw [List.takeWhile_append_of_pos hw, List.dropWhile_append_of_pos hw]
  simp

theorem readChar_debugChar (esc : Nat → Bool) (c : Char) (r : Bytes) : readChar (debugChar esc c ++ r) = some (c, r) := by
  have hc := char_of_val c
  unfold debugChar
  dsimp only
  by_cases h0 : c.val.toNat = 0
  · rw [if_pos h0]; rw [h0] at hc; simp [readChar]; exact hc
  rw [if_neg h0]
  by_cases h1 : c.val.toNat = 9
  · rw [if_pos h1]; rw [h1] at hc; simp [readChar]; exact hc
  rw [if_neg h1]
  by_cases h2 : c.val.toNat = 13
  · rw [if_pos h2]; rw [h2] at hc; simp [readChar]; exact hc
  rw [if_neg h2]
  by_cases h3 : c.val.toNat = 10
  · rw [if_pos h3]; rw [h3] at hc; simp [readChar]; exact hc
  rw [if_neg h3]
  by_cases h4 : c.val.toNat = 34
  · rw [if_pos h4]; rw [h4] at hc; simp [readChar]; exact hc
  rw [if_neg h4]
  by_cases h5 : c.val.toNat = 92
  · rw [if_pos h5]; rw [h5] at hc; simp [readChar]; exact hc
  rw [if_neg h5]
  by_cases h6 : c.val.toNat < 32 ∨ c.val.toNat = 127 ∨ (128 ≤ c.val.toNat ∧ esc c.val.toNat)
  · rw [if_pos h6]
    obtain ⟨hx, hv⟩ := hex_spec c.val.toNat
    obtain ⟨e1, e2⟩ := takeWhile_close (hex c.val.toNat) r hx
    generalize hex c.val.toNat = w at *
    simp [readChar]
    rw [e1, e2, hv]
    exact ⟨hc, rfl⟩
  · rw [if_neg h6]
    have hne : ∀ a t, String.utf8EncodeChar c = a :: t → a ≠ 0x5C := by
      rintro a t he rfl
      have hd := decode_char c []
      rw [he] at hd
      have : (decode ((0x5C : UInt8) :: t ++ [])).head? = some (Char.ofNat 92) := by
        rw [List.append_nil, decode_lt (by decide)]
        rfl
      rw [hd, List.head?_cons, Option.some.injEq] at this
      rw [this] at h5
      exact h5 rfl
    obtain ⟨a, t, he⟩ : ∃ a t, String.utf8EncodeChar c = a :: t := by
      rcases enc_cases c with ⟨x, _, h⟩ | ⟨x, t, h, _⟩
      · exact ⟨x, [], h⟩
      · exact ⟨x, t, h⟩
    have hd := decode_char c r
    have hn := hne a t he
    have hl : ((a :: t) ++ r).drop (String.utf8EncodeChar c).length = r := by
      rw [he, List.drop_left]
    rw [he] at hd ⊢
    rw [List.cons_append] at hd hl ⊢
    unfold readChar
    dsimp only
    rw [if_neg hn, hd]
    dsimp only
    rw [hl]

theorem debugChar_inj {esc : Nat → Bool} {c d : Char} {x y : Bytes}
    (h : debugChar esc c ++ x = debugChar esc d ++ y) : c = d ∧ x = y := by
  have h' := congrArg readChar h
  rw [readChar_debugChar, readChar_debugChar] at h'
  injection h' with h'
  injection h' with h1 h2
  exact ⟨h1, h2⟩

theorem debugChar_head (esc : Nat → Bool) (c : Char) : ∃ a t, debugChar esc c = a :: t ∧ a ≠ 0x22 := by
  have hne := readChar_debugChar esc c []
  rw [List.append_nil] at hne
  cases h : debugChar esc c with
  | nil => rw [h] at hne; simp [readChar] at hne
  | cons a t =>
    refine ⟨a, t, rfl, ?_⟩
    rintro rfl
    rw [h] at hne
    have hc : c = Char.ofNat 34 := by
      unfold readChar at hne
      dsimp only at hne
      rw [if_neg (by decide), decode_lt (by decide)] at hne
      dsimp only at hne
      injection hne with hne
      exact (congrArg Prod.fst hne).symm
    subst hc
    have : debugChar esc (Char.ofNat 34) = b!"\\\"" := by
      unfold debugChar
      simp
    rw [this] at h
    exact absurd (List.cons.inj h).1 (by decide)

theorem chars_inj {esc : Nat → Bool} : ∀ {cs ds : List Char} {r r' : Bytes},
    cs.flatMap (debugChar esc) ++ 0x22 :: r = ds.flatMap (debugChar esc) ++ 0x22 :: r' → cs = ds ∧ r = r'
  | [], [], _, _, h => ⟨rfl, (List.cons.inj h).2⟩
  | [], d :: ds, _, _, h => by
    obtain ⟨a, t, e, hn⟩ := debugChar_head esc d
    rw [List.flatMap_cons, e] at h
    exact absurd (List.cons.inj h).1.symm hn
  | c :: cs, [], _, _, h => by
    obtain ⟨a, t, e, hn⟩ := debugChar_head esc c
    rw [List.flatMap_cons, e] at h
    exact absurd (List.cons.inj h).1 hn
  | c :: cs, d :: ds, r, r', h => by
    rw [List.flatMap_cons, List.flatMap_cons, List.append_assoc, List.append_assoc] at h
    obtain ⟨rfl, h'⟩ := debugChar_inj h
    obtain ⟨rfl, h''⟩ := chars_inj h'
    exact ⟨rfl, h''⟩

theorem debugStr_inj {esc : Nat → Bool} {s s' r r' : Bytes} (hs : Utf8 s) (hs' : Utf8 s')
    (h : debugStr esc s ++ r = debugStr esc s' ++ r') : s = s' ∧ r = r' := by
  obtain ⟨cs, rfl⟩ := hs
  obtain ⟨ds, rfl⟩ := hs'
  have e1 : decode (cs.flatMap String.utf8EncodeChar) = cs := decode_enc cs
  have e2 : decode (ds.flatMap String.utf8EncodeChar) = ds := decode_enc ds
  unfold debugStr at h
  rw [e1, e2] at h
  simp only [List.cons_append, List.append_assoc, List.nil_append] at h
  obtain ⟨rfl, h'⟩ := chars_inj (List.cons.inj h).2
  exact ⟨rfl, h'⟩

/-! ### Trees -/

/-- Bytes that occur in names and in numbers, dates and durations. -/
def wordByte (x : UInt8) : Bool :=
  x != 0x2C && decide (0x20 < x) && decide (x != 0x7F) && x != 0x28 && x != 0x29 && x != 0x5B && x != 0x5D && x != 0x7B &&
    x != 0x7D && x != 0x22

/-- Bytes that occur in the names of fields. -/
def labelByte (x : UInt8) : Bool := wordByte x && x != 0x3A

def Word (s : Bytes) : Prop := ∀ x ∈ s, wordByte x = true

def Label (s : Bytes) : Prop := s ≠ [] ∧ ∀ x ∈ s, labelByte x = true

instance (s : Bytes) : Decidable (Word s) := inferInstanceAs (Decidable (∀ x ∈ s, wordByte x = true))
instance (s : Bytes) : Decidable (Label s) := inferInstanceAs (Decidable (_ ∧ _))

mutual
/-- The trees of which the text can be read back. -/
def Dbg.Good : Dbg → Prop
  | .atom t => t ≠ [] ∧ Word t
  | .str s => Utf8 s
  | .node (.struct name more) items => Word name ∧ more = false ∧ items ≠ .nil ∧ Items.Good true items
  | .node (.tuple name) items => Word name ∧ items ≠ .nil ∧ Items.Good false items
  | .node .list items => Items.Good false items
def Items.Good (named : Bool) : Items → Prop
  | .nil => True
  | .cons l v rest => (if named then Label l else l = []) ∧ Dbg.Good v ∧ Items.Good named rest
end

/-- What may follow the fields of a node. -/
inductive Close : Bytes → Prop
  | paren (r : Bytes) : Close (0x29 :: r)
  | bracket (r : Bytes) : Close (0x5D :: r)
  | brace (r : Bytes) : Close (0x20 :: 0x7D :: r)

/-- What may follow a value. -/
inductive Follow : Bytes → Prop
  | nil : Follow []
  | comma (r : Bytes) : Follow (0x2C :: r)
  | close {r : Bytes} : Close r → Follow r

theorem Follow.head {r : Bytes} (h : Follow r) : ∀ c, r.head? = some c → wordByte c = false := by
  intro c hc
  cases h with
  | nil => simp at hc
  | comma r => simp at hc; subst hc; decide
  | close h => cases h <;> (simp at hc; subst hc; decide)

theorem label_inj {named : Bool} {l l' x y : Bytes} (h : if named then Label l else l = [])
    (h' : if named then Label l' else l' = []) (e : labelText l ++ x = labelText l' ++ y) : l = l' ∧ x = y := by
  cases named
  · simp only [Bool.false_eq_true, if_false] at h h'
    subst h h'
    exact ⟨rfl, e⟩
  · simp only [if_true] at h h'
    unfold labelText at e
    rw [if_neg h.1, if_neg h'.1, List.append_assoc, List.append_assoc] at e
    obtain ⟨rfl, e⟩ := span_eq labelByte _ _ _ _ h.2 h'.2 (by simp; decide) (by simp; decide) e
    exact ⟨rfl, by simpa using e⟩

/-- The word a text starts with. -/
def Dbg.word : Dbg → Bytes
  | .atom t => t
  | .str _ => []
  | .node (.struct name _) _ => name
  | .node (.tuple name) _ => name
  | .node .list _ => []

/-- What follows this word. -/
def Dbg.after (esc : Nat → Bool) (r : Bytes) : Dbg → Bytes
  | .atom _ => r
  | .str s => debugStr esc s ++ r
  | .node (.struct _ _) .nil => r
  | .node (.struct _ _) (.cons l v rest) => b!" { " ++ (labelText l ++ (v.compact esc ++ (rest.compact esc ++ (b!" }" ++ r))))
  | .node (.tuple _) .nil => r
  | .node (.tuple _) (.cons l v rest) => b!"(" ++ (labelText l ++ (v.compact esc ++ (rest.compact esc ++ (b!")" ++ r))))
  | .node .list .nil => b!"[]" ++ r
  | .node .list (.cons l v rest) => b!"[" ++ (labelText l ++ (v.compact esc ++ (rest.compact esc ++ (b!"]" ++ r))))

theorem compact_split (esc : Nat → Bool) (t : Dbg) (ht : Dbg.Good t) (r : Bytes) :
    t.compact esc ++ r = Dbg.word t ++ Dbg.after esc r t := by
  match t, ht with
  | .atom _, _ => rw [Dbg.compact]; rfl
  | .str _, _ => rw [Dbg.compact]; rfl
  | .node (.struct name more) .nil, h => exact absurd rfl h.2.2.1
  | .node (.struct name more) (.cons l v rest), h =>
    obtain rfl := h.2.1
    rw [Dbg.compact]
    simp [Dbg.word, Dbg.after, List.append_assoc]
  | .node (.tuple name) .nil, h => exact absurd rfl h.2.1
  | .node (.tuple name) (.cons l v rest), h =>
    rw [Dbg.compact]
    simp [Dbg.word, Dbg.after, List.append_assoc]
  | .node .list .nil, h => rw [Dbg.compact]; rfl
  | .node .list (.cons l v rest), h =>
    rw [Dbg.compact]
    simp [Dbg.word, Dbg.after, List.append_assoc]

theorem good_word {t : Dbg} (h : Dbg.Good t) : Word (Dbg.word t) := by
  match t, h with
  | .atom _, h => exact h.2
  | .str _, _ => simp [Word, Dbg.word]
  | .node (.struct _ _) _, h => exact h.1
  | .node (.tuple _) _, h => exact h.1
  | .node .list _, _ => simp [Word, Dbg.word]

theorem good_after (esc : Nat → Bool) {t : Dbg} (h : Dbg.Good t) {r : Bytes} (hr : Follow r) :
    ∀ c, (Dbg.after esc r t).head? = some c → wordByte c = false := by
  intro c hc
  match t, h with
  | .atom _, h => exact hr.head c hc
  | .str _, _ => simp [Dbg.after, debugStr] at hc; subst hc; decide
  | .node (.struct _ _) .nil, h => exact absurd rfl h.2.2.1
  | .node (.struct _ _) (.cons _ _ _), h => simp [Dbg.after] at hc; subst hc; decide
  | .node (.tuple _) .nil, h => exact absurd rfl h.2.1
  | .node (.tuple _) (.cons _ _ _), h => simp [Dbg.after] at hc; subst hc; decide
  | .node .list .nil, h => simp [Dbg.after] at hc; subst hc; decide
  | .node .list (.cons _ _ _), h => simp [Dbg.after] at hc; subst hc; decide

theorem items_follow (esc : Nat → Bool) (i : Items) {r : Bytes} (hr : Close r) : Follow (i.compact esc ++ r) := by
  cases i with
  | nil => rw [Items.compact]; exact .close hr
  | cons l v rest => rw [Items.compact]; exact .comma _

/-- A value does not start with a closing bracket. -/
theorem good_head (esc : Nat → Bool) {t : Dbg} (h : Dbg.Good t) (x y : Bytes) : t.compact esc ++ x ≠ 0x5D :: y := by
  intro e
  match t, h with
  | .atom t, h =>
    rw [Dbg.compact] at e
    cases t with
    | nil => exact h.1 rfl
    | cons a t =>
      have := h.2 a (by simp)
      rw [(List.cons.inj e).1] at this
      exact absurd this (by decide)
  | .str _, _ =>
    rw [Dbg.compact] at e
    exact absurd (List.cons.inj e).1 (by decide)
  | .node (.struct _ _) .nil, h => exact absurd rfl h.2.2.1
  | .node (.struct name _) (.cons _ _ _), h =>
    rw [compact_split esc _ h] at e
    cases name with
    | nil => exact absurd (List.cons.inj e).1 (by decide)
    | cons a t =>
      have := h.1 a (by simp)
      rw [(List.cons.inj e).1] at this
      exact absurd this (by decide)
  | .node (.tuple _) .nil, h => exact absurd rfl h.2.1
  | .node (.tuple name) (.cons _ _ _), h =>
    rw [compact_split esc _ h] at e
    cases name with
    | nil => exact absurd (List.cons.inj e).1 (by decide)
    | cons a t =>
      have := h.1 a (by simp)
      rw [(List.cons.inj e).1] at this
      exact absurd this (by decide)
  | .node .list .nil, h =>
    rw [compact_split esc _ h] at e
    exact absurd (List.cons.inj e).1 (by decide)
  | .node .list (.cons _ _ _), h =>
    rw [compact_split esc _ h] at e
    exact absurd (List.cons.inj e).1 (by decide)

/-- What kind of value has a text that goes on like this after its first word. -/
def code : Bytes → Nat
  | [] => 0
  | a :: t =>
    if a = 0x22 then 1
    else if a = 0x28 then 3
    else if a = 0x5B then 4
    else if a = 0x20 then (match t with | [] => 0 | b :: _ => if b = 0x7B then 2 else 0)
    else 0

def Dbg.kindNo : Dbg → Nat
  | .atom _ => 0
  | .str _ => 1
  | .node (.struct _ _) _ => 2
  | .node (.tuple _) _ => 3
  | .node .list _ => 4

theorem code_follow {r : Bytes} (h : Follow r) : code r = 0 := by
  cases h with
  | nil => rfl
  | comma r => simp [code]
  | close h => cases h <;> simp [code]

theorem code_after (esc : Nat → Bool) {t : Dbg} (h : Dbg.Good t) {r : Bytes} (hr : Follow r) :
    code (Dbg.after esc r t) = Dbg.kindNo t := by
  match t, h with
  | .atom _, h => exact code_follow hr
  | .str _, _ => simp [Dbg.after, debugStr, code, Dbg.kindNo]
  | .node (.struct _ _) .nil, h => exact absurd rfl h.2.2.1
  | .node (.struct _ _) (.cons _ _ _), h => simp [Dbg.after, code, Dbg.kindNo]
  | .node (.tuple _) .nil, h => exact absurd rfl h.2.1
  | .node (.tuple _) (.cons _ _ _), h => simp [Dbg.after, code, Dbg.kindNo]
  | .node .list .nil, h => simp [Dbg.after, code, Dbg.kindNo]
  | .node .list (.cons _ _ _), h => simp [Dbg.after, code, Dbg.kindNo]

mutual
theorem compact_inj (esc : Nat → Bool) : ∀ (t t' : Dbg) (r r' : Bytes), Dbg.Good t → Dbg.Good t' → Follow r → Follow r' →
    t.compact esc ++ r = t'.compact esc ++ r' → t = t' ∧ r = r'
  | .atom a, t', r, r', h, h', hr, hr', e => by
    rw [compact_split esc _ h, compact_split esc t' h'] at e
    obtain ⟨e1, e2⟩ := span_eq wordByte _ _ _ _ (good_word h) (good_word h') (good_after esc h hr) (good_after esc h' hr') e
    have ek := congrArg code e2
    rw [code_after esc h hr, code_after esc h' hr'] at ek
    match t', h', e1, e2, ek with
    | .atom a', h', e1, e2, _ =>
      obtain rfl : a = a' := e1
      exact ⟨rfl, e2⟩
    | .str _, _, _, _, ek => simp [Dbg.kindNo] at ek
    | .node (.struct _ _) _, _, _, _, ek => simp [Dbg.kindNo] at ek
    | .node (.tuple _) _, _, _, _, ek => simp [Dbg.kindNo] at ek
    | .node .list _, _, _, _, ek => simp [Dbg.kindNo] at ek
  | .str a, t', r, r', h, h', hr, hr', e => by
    rw [compact_split esc _ h, compact_split esc t' h'] at e
    obtain ⟨e1, e2⟩ := span_eq wordByte _ _ _ _ (good_word h) (good_word h') (good_after esc h hr) (good_after esc h' hr') e
    have ek := congrArg code e2
    rw [code_after esc h hr, code_after esc h' hr'] at ek
    match t', h', e1, e2, ek with
    | .str a', h', e1, e2, _ =>
      obtain ⟨rfl, e3⟩ := debugStr_inj h h' e2
      exact ⟨rfl, e3⟩
    | .atom _, _, _, _, ek => simp [Dbg.kindNo] at ek
    | .node (.struct _ _) _, _, _, _, ek => simp [Dbg.kindNo] at ek
    | .node (.tuple _) _, _, _, _, ek => simp [Dbg.kindNo] at ek
    | .node .list _, _, _, _, ek => simp [Dbg.kindNo] at ek
  | .node (.struct n m) .nil, t', r, r', h, h', hr, hr', e => absurd rfl h.2.2.1
  | .node (.struct n m) (.cons l v rest), t', r, r', h, h', hr, hr', e => by
    rw [compact_split esc _ h, compact_split esc t' h'] at e
    obtain ⟨e1, e2⟩ := span_eq wordByte _ _ _ _ (good_word h) (good_word h') (good_after esc h hr) (good_after esc h' hr') e
    have ek := congrArg code e2
    rw [code_after esc h hr, code_after esc h' hr'] at ek
    match t', h', e1, e2, ek with
    | .node (.struct n' m') .nil, h', e1, e2, _ => exact absurd rfl h'.2.2.1
    | .node (.struct n' m') (.cons l' v' rest'), h', e1, e2, _ =>
      obtain rfl : n = n' := e1
      obtain rfl := h.2.1
      obtain rfl := h'.2.1
      obtain ⟨hl, hv, hi⟩ := h.2.2.2
      obtain ⟨hl', hv', hi'⟩ := h'.2.2.2
      obtain ⟨rfl, e3⟩ := label_inj (named := true) hl hl' (List.append_cancel_left e2)
      obtain ⟨rfl, e4⟩ := compact_inj esc v v' _ _ hv hv' (items_follow esc rest (.brace r)) (items_follow esc rest' (.brace r')) e3
      obtain ⟨rfl, e5⟩ := compact_items_inj esc true rest rest' _ _ hi hi' (.brace r) (.brace r') e4
      exact ⟨rfl, by simpa using e5⟩
    | .atom _, _, _, _, ek => simp [Dbg.kindNo] at ek
    | .str _, _, _, _, ek => simp [Dbg.kindNo] at ek
    | .node (.tuple _) _, _, _, _, ek => simp [Dbg.kindNo] at ek
    | .node .list _, _, _, _, ek => simp [Dbg.kindNo] at ek
  | .node (.tuple n) .nil, t', r, r', h, h', hr, hr', e => absurd rfl h.2.1
  | .node (.tuple n) (.cons l v rest), t', r, r', h, h', hr, hr', e => by
    rw [compact_split esc _ h, compact_split esc t' h'] at e
    obtain ⟨e1, e2⟩ := span_eq wordByte _ _ _ _ (good_word h) (good_word h') (good_after esc h hr) (good_after esc h' hr') e
    have ek := congrArg code e2
    rw [code_after esc h hr, code_after esc h' hr'] at ek
    match t', h', e1, e2, ek with
    | .node (.tuple n') .nil, h', e1, e2, _ => exact absurd rfl h'.2.1
    | .node (.tuple n') (.cons l' v' rest'), h', e1, e2, _ =>
      obtain rfl : n = n' := e1
      obtain ⟨hl, hv, hi⟩ := h.2.2
      obtain ⟨hl', hv', hi'⟩ := h'.2.2
      obtain ⟨rfl, e3⟩ := label_inj (named := false) hl hl' (List.append_cancel_left e2)
      obtain ⟨rfl, e4⟩ := compact_inj esc v v' _ _ hv hv' (items_follow esc rest (.paren r)) (items_follow esc rest' (.paren r')) e3
      obtain ⟨rfl, e5⟩ := compact_items_inj esc false rest rest' _ _ hi hi' (.paren r) (.paren r') e4
      exact ⟨rfl, by simpa using e5⟩
    | .atom _, _, _, _, ek => simp [Dbg.kindNo] at ek
    | .str _, _, _, _, ek => simp [Dbg.kindNo] at ek
    | .node (.struct _ _) _, _, _, _, ek => simp [Dbg.kindNo] at ek
    | .node .list _, _, _, _, ek => simp [Dbg.kindNo] at ek
  | .node .list .nil, t', r, r', h, h', hr, hr', e => by
    rw [compact_split esc _ h, compact_split esc t' h'] at e
    obtain ⟨e1, e2⟩ := span_eq wordByte _ _ _ _ (good_word h) (good_word h') (good_after esc h hr) (good_after esc h' hr') e
    have ek := congrArg code e2
    rw [code_after esc h hr, code_after esc h' hr'] at ek
    match t', h', e1, e2, ek with
    | .node .list .nil, h', e1, e2, _ => exact ⟨rfl, List.append_cancel_left e2⟩
    | .node .list (.cons l' v' rest'), h', e1, e2, _ =>
      obtain ⟨hl', hv', _⟩ := h'
      obtain rfl : l' = [] := hl'
      exact absurd (List.cons.inj e2).2.symm (good_head esc hv' _ _)
    | .atom _, _, _, _, ek => simp [Dbg.kindNo] at ek
    | .str _, _, _, _, ek => simp [Dbg.kindNo] at ek
    | .node (.struct _ _) _, _, _, _, ek => simp [Dbg.kindNo] at ek
    | .node (.tuple _) _, _, _, _, ek => simp [Dbg.kindNo] at ek
  | .node .list (.cons l v rest), t', r, r', h, h', hr, hr', e => by
    rw [compact_split esc _ h, compact_split esc t' h'] at e
    obtain ⟨e1, e2⟩ := span_eq wordByte _ _ _ _ (good_word h) (good_word h') (good_after esc h hr) (good_after esc h' hr') e
    have ek := congrArg code e2
    rw [code_after esc h hr, code_after esc h' hr'] at ek
    match t', h', e1, e2, ek with
    | .node .list .nil, h', e1, e2, _ =>
      obtain ⟨hl, hv, _⟩ := h
      obtain rfl : l = [] := hl
      exact absurd (List.cons.inj e2).2 (good_head esc hv _ _)
    | .node .list (.cons l' v' rest'), h', e1, e2, _ =>
      obtain ⟨hl, hv, hi⟩ := h
      obtain ⟨hl', hv', hi'⟩ := h'
      obtain ⟨rfl, e3⟩ := label_inj (named := false) hl hl' (List.append_cancel_left e2)
      obtain ⟨rfl, e4⟩ := compact_inj esc v v' _ _ hv hv' (items_follow esc rest (.bracket r)) (items_follow esc rest' (.bracket r')) e3
      obtain ⟨rfl, e5⟩ := compact_items_inj esc false rest rest' _ _ hi hi' (.bracket r) (.bracket r') e4
      exact ⟨rfl, by simpa using e5⟩
    | .atom _, _, _, _, ek => simp [Dbg.kindNo] at ek
    | .str _, _, _, _, ek => simp [Dbg.kindNo] at ek
    | .node (.struct _ _) _, _, _, _, ek => simp [Dbg.kindNo] at ek
    | .node (.tuple _) _, _, _, _, ek => simp [Dbg.kindNo] at ek
  termination_by t => sizeOf t
theorem compact_items_inj (esc : Nat → Bool) (named : Bool) : ∀ (i i' : Items) (r r' : Bytes),
    Items.Good named i → Items.Good named i' → Close r → Close r' →
    i.compact esc ++ r = i'.compact esc ++ r' → i = i' ∧ r = r'
  | .nil, .nil, _, _, _, _, _, _, e => by
    rw [Items.compact] at e
    exact ⟨rfl, e⟩
  | .nil, .cons l v rest, r, r', _, _, hr, _, e => by
    rw [Items.compact, Items.compact] at e
    exfalso
    cases hr <;> exact absurd (List.cons.inj e).1 (by decide)
  | .cons l v rest, .nil, r, r', _, _, _, hr, e => by
    rw [Items.compact, Items.compact] at e
    exfalso
    cases hr <;> exact absurd (List.cons.inj e).1 (by decide)
  | .cons l v rest, .cons l' v' rest', r, r', h, h', hr, hr', e => by
    rw [Items.compact, Items.compact] at e
    simp only [List.append_assoc] at e
    obtain ⟨hl, hv, hi⟩ := h
    obtain ⟨hl', hv', hi'⟩ := h'
    obtain ⟨rfl, e3⟩ := label_inj hl hl' (List.append_cancel_left e)
    obtain ⟨rfl, e4⟩ := compact_inj esc v v' _ _ hv hv' (items_follow esc rest hr) (items_follow esc rest' hr') e3
    obtain ⟨rfl, e5⟩ := compact_items_inj esc named rest rest' _ _ hi hi' hr hr' e4
    exact ⟨rfl, e5⟩
  termination_by i => sizeOf i
end

/-! ### The form over several lines -/

/-- The fields of a node before they are indented. -/
def Items.flat (esc : Nat → Bool) : Items → Bytes
  | .nil => []
  | .cons l v rest => labelText l ++ (v.pretty esc ++ (b!",\n" ++ Items.flat esc rest))

theorem pad_append_nl : ∀ (nl : Bool) (a b : Bytes), pad nl (a ++ 0x0A :: b) = pad nl (a ++ [0x0A]) ++ pad true b
  | nl, [], b => by simp [pad]
  | nl, x :: a, b => by
    rw [List.cons_append, List.cons_append, pad, pad, pad_append_nl _ a b]
    simp

theorem items_pretty (esc : Nat → Bool) : ∀ i : Items, i.pretty esc = pad true (Items.flat esc i)
  | .nil => by rw [Items.pretty]; rfl
  | .cons l v rest => by
    rw [Items.pretty, items_pretty esc rest, Items.flat]
    have := pad_append_nl true (labelText l ++ v.pretty esc ++ b!",") (Items.flat esc rest)
    simp only [List.append_assoc, List.cons_append, List.nil_append] at this ⊢
    exact this.symm

theorem flat_nl (esc : Nat → Bool) : ∀ i : Items, i = .nil ∨ ∃ a, Items.flat esc i = a ++ [0x0A]
  | .nil => .inl rfl
  | .cons l v rest => by
    right
    rcases flat_nl esc rest with rfl | ⟨a, ha⟩
    · exact ⟨labelText l ++ (v.pretty esc ++ b!","), by simp [Items.flat]⟩
    · exact ⟨labelText l ++ (v.pretty esc ++ (b!",\n" ++ a)), by rw [Items.flat, ha]; simp⟩

/-- Indented lines end where a line is not indented. -/
theorem pad_inj : ∀ (nl : Bool) (a b : Bytes) (c d : UInt8) (r r' : Bytes), c ≠ 0x20 → d ≠ 0x20 →
    ((a = [] ∧ nl = true) ∨ ∃ a', a = a' ++ [0x0A]) → ((b = [] ∧ nl = true) ∨ ∃ b', b = b' ++ [0x0A]) →
    pad nl a ++ c :: r = pad nl b ++ d :: r' → a = b ∧ c :: r = d :: r'
  | nl, [], [], c, d, r, r', _, _, _, _, e => ⟨rfl, e⟩
  | nl, [], y :: b, c, d, r, r', hc, _, ha, _, e => by
    obtain rfl : nl = true := by
      rcases ha with ⟨_, h⟩ | ⟨a', h⟩
      · exact h
      · simp at h
    exact absurd (List.cons.inj e).1 hc
  | nl, x :: a, [], c, d, r, r', _, hd, _, hb, e => by
    obtain rfl : nl = true := by
      rcases hb with ⟨_, h⟩ | ⟨a', h⟩
      · exact h
      · simp at h
    exact absurd (List.cons.inj e).1.symm hd
  | nl, x :: a, y :: b, c, d, r, r', hc, hd, ha, hb, e => by
    have key : ∀ z : UInt8, ∀ u : Bytes, ((z :: u = [] ∧ nl = true) ∨ ∃ a', z :: u = a' ++ [0x0A]) →
        ((u = [] ∧ (z == 0x0A) = true) ∨ ∃ a', u = a' ++ [0x0A]) := by
      rintro z u (⟨h, _⟩ | ⟨a', h⟩)
      · simp at h
      · cases a' with
        | nil =>
          obtain ⟨rfl, rfl⟩ : z = 0x0A ∧ u = [] := by simpa using h
          exact .inl ⟨rfl, rfl⟩
        | cons w a' =>
          right
          exact ⟨a', (List.cons.inj h).2⟩
    rw [pad, pad, List.append_assoc, List.append_assoc] at e
    have e := List.append_cancel_left e
    rw [List.cons_append, List.cons_append, List.cons.injEq] at e
    obtain ⟨rfl, e⟩ := e
    obtain ⟨rfl, e'⟩ := pad_inj _ a b c d r r' hc hd (key x a ha) (key x b hb) e
    exact ⟨rfl, e'⟩

theorem flat_inj_of_pad (esc : Nat → Bool) (i i' : Items) (c : UInt8) (hc : c ≠ 0x20) (r r' : Bytes)
    (e : i.pretty esc ++ c :: r = i'.pretty esc ++ c :: r') : Items.flat esc i = Items.flat esc i' ∧ r = r' := by
  rw [items_pretty, items_pretty] at e
  have hn : ∀ i : Items, (Items.flat esc i = [] ∧ true = true) ∨ ∃ a', Items.flat esc i = a' ++ [0x0A] := by
    intro i
    rcases flat_nl esc i with rfl | h
    · exact .inl ⟨rfl, rfl⟩
    · exact .inr h
  obtain ⟨e1, e2⟩ := pad_inj true _ _ c c r r' hc hc (hn i) (hn i') e
  exact ⟨e1, (List.cons.inj e2).2⟩

/-- What follows the first word of a text over several lines. -/
def Dbg.afterP (esc : Nat → Bool) (r : Bytes) : Dbg → Bytes
  | .atom _ => r
  | .str s => debugStr esc s ++ r
  | .node (.struct _ _) items => b!" {\n" ++ (items.pretty esc ++ 0x7D :: r)
  | .node (.tuple _) items => b!"(\n" ++ (items.pretty esc ++ 0x29 :: r)
  | .node .list .nil => b!"[]" ++ r
  | .node .list (.cons l v rest) => b!"[\n" ++ ((Items.cons l v rest).pretty esc ++ 0x5D :: r)

theorem pretty_split (esc : Nat → Bool) (t : Dbg) (ht : Dbg.Good t) (r : Bytes) :
    t.pretty esc ++ r = Dbg.word t ++ Dbg.afterP esc r t := by
  match t, ht with
  | .atom _, _ => rw [Dbg.pretty]; rfl
  | .str _, _ => rw [Dbg.pretty]; rfl
  | .node (.struct name more) .nil, h => exact absurd rfl h.2.2.1
  | .node (.struct name more) (.cons l v rest), h =>
    obtain rfl := h.2.1
    rw [Dbg.pretty, Dbg.afterP, Items.pretty]
    simp [Dbg.word, List.append_assoc]
  | .node (.tuple name) .nil, h => exact absurd rfl h.2.1
  | .node (.tuple name) (.cons l v rest), h =>
    rw [Dbg.pretty, Dbg.afterP, Items.pretty]
    simp [Dbg.word, List.append_assoc]
  | .node .list .nil, h => rw [Dbg.pretty]; rfl
  | .node .list (.cons l v rest), h =>
    rw [Dbg.pretty, Dbg.afterP, Items.pretty]
    simp [Dbg.word, List.append_assoc]

theorem good_afterP (esc : Nat → Bool) {t : Dbg} (h : Dbg.Good t) {r : Bytes} (hr : Follow r) :
    ∀ c, (Dbg.afterP esc r t).head? = some c → wordByte c = false := by
  intro c hc
  match t, h with
  | .atom _, h => exact hr.head c hc
  | .str _, _ => simp [Dbg.afterP, debugStr] at hc; subst hc; decide
  | .node (.struct _ _) _, h => simp [Dbg.afterP] at hc; subst hc; decide
  | .node (.tuple _) _, h => simp [Dbg.afterP] at hc; subst hc; decide
  | .node .list .nil, h => simp [Dbg.afterP] at hc; subst hc; decide
  | .node .list (.cons _ _ _), h => simp [Dbg.afterP] at hc; subst hc; decide

theorem code_afterP (esc : Nat → Bool) {t : Dbg} (h : Dbg.Good t) {r : Bytes} (hr : Follow r) :
    code (Dbg.afterP esc r t) = Dbg.kindNo t := by
  match t, h with
  | .atom _, h => exact code_follow hr
  | .str _, _ => simp [Dbg.afterP, debugStr, code, Dbg.kindNo]
  | .node (.struct _ _) _, h => simp [Dbg.afterP, code, Dbg.kindNo]
  | .node (.tuple _) _, h => simp [Dbg.afterP, code, Dbg.kindNo]
  | .node .list .nil, h => simp [Dbg.afterP, code, Dbg.kindNo]
  | .node .list (.cons _ _ _), h => simp [Dbg.afterP, code, Dbg.kindNo]

mutual
theorem pretty_inj (esc : Nat → Bool) : ∀ (t t' : Dbg) (r r' : Bytes), Dbg.Good t → Dbg.Good t' → Follow r → Follow r' →
    t.pretty esc ++ r = t'.pretty esc ++ r' → t = t' ∧ r = r'
  | .atom a, t', r, r', h, h', hr, hr', e => by
    rw [pretty_split esc _ h, pretty_split esc t' h'] at e
    obtain ⟨e1, e2⟩ := span_eq wordByte _ _ _ _ (good_word h) (good_word h') (good_afterP esc h hr) (good_afterP esc h' hr') e
    have ek := congrArg code e2
    rw [code_afterP esc h hr, code_afterP esc h' hr'] at ek
    match t', h', e1, e2, ek with
    | .atom a', h', e1, e2, _ =>
      obtain rfl : a = a' := e1
      exact ⟨rfl, e2⟩
    | .str _, _, _, _, ek => simp [Dbg.kindNo] at ek
    | .node (.struct _ _) _, _, _, _, ek => simp [Dbg.kindNo] at ek
    | .node (.tuple _) _, _, _, _, ek => simp [Dbg.kindNo] at ek
    | .node .list _, _, _, _, ek => simp [Dbg.kindNo] at ek
  | .str a, t', r, r', h, h', hr, hr', e => by
    rw [pretty_split esc _ h, pretty_split esc t' h'] at e
    obtain ⟨e1, e2⟩ := span_eq wordByte _ _ _ _ (good_word h) (good_word h') (good_afterP esc h hr) (good_afterP esc h' hr') e
    have ek := congrArg code e2
    rw [code_afterP esc h hr, code_afterP esc h' hr'] at ek
    match t', h', e1, e2, ek with
    | .str a', h', e1, e2, _ =>
      obtain ⟨rfl, e3⟩ := debugStr_inj h h' e2
      exact ⟨rfl, e3⟩
    | .atom _, _, _, _, ek => simp [Dbg.kindNo] at ek
    | .node (.struct _ _) _, _, _, _, ek => simp [Dbg.kindNo] at ek
    | .node (.tuple _) _, _, _, _, ek => simp [Dbg.kindNo] at ek
    | .node .list _, _, _, _, ek => simp [Dbg.kindNo] at ek
  | .node (.struct n m) i, t', r, r', h, h', hr, hr', e => by
    rw [pretty_split esc _ h, pretty_split esc t' h'] at e
    obtain ⟨e1, e2⟩ := span_eq wordByte _ _ _ _ (good_word h) (good_word h') (good_afterP esc h hr) (good_afterP esc h' hr') e
    have ek := congrArg code e2
    rw [code_afterP esc h hr, code_afterP esc h' hr'] at ek
    match t', h', e1, e2, ek with
    | .node (.struct n' m') i', h', e1, e2, _ =>
      obtain rfl : n = n' := e1
      obtain rfl := h.2.1
      obtain rfl := h'.2.1
      obtain ⟨e3, e4⟩ := flat_inj_of_pad esc i i' 0x7D (by decide) r r' (List.append_cancel_left e2)
      obtain rfl := flat_inj esc true i i' h.2.2.2 h'.2.2.2 e3
      exact ⟨rfl, e4⟩
    | .atom _, _, _, _, ek => simp [Dbg.kindNo] at ek
    | .str _, _, _, _, ek => simp [Dbg.kindNo] at ek
    | .node (.tuple _) _, _, _, _, ek => simp [Dbg.kindNo] at ek
    | .node .list _, _, _, _, ek => simp [Dbg.kindNo] at ek
  | .node (.tuple n) i, t', r, r', h, h', hr, hr', e => by
    rw [pretty_split esc _ h, pretty_split esc t' h'] at e
    obtain ⟨e1, e2⟩ := span_eq wordByte _ _ _ _ (good_word h) (good_word h') (good_afterP esc h hr) (good_afterP esc h' hr') e
    have ek := congrArg code e2
    rw [code_afterP esc h hr, code_afterP esc h' hr'] at ek
    match t', h', e1, e2, ek with
    | .node (.tuple n') i', h', e1, e2, _ =>
      obtain rfl : n = n' := e1
      obtain ⟨e3, e4⟩ := flat_inj_of_pad esc i i' 0x29 (by decide) r r' (List.append_cancel_left e2)
      obtain rfl := flat_inj esc false i i' h.2.2 h'.2.2 e3
      exact ⟨rfl, e4⟩
    | .atom _, _, _, _, ek => simp [Dbg.kindNo] at ek
    | .str _, _, _, _, ek => simp [Dbg.kindNo] at ek
    | .node (.struct _ _) _, _, _, _, ek => simp [Dbg.kindNo] at ek
    | .node .list _, _, _, _, ek => simp [Dbg.kindNo] at ek
  | .node .list .nil, t', r, r', h, h', hr, hr', e => by
    rw [pretty_split esc _ h, pretty_split esc t' h'] at e
    obtain ⟨e1, e2⟩ := span_eq wordByte _ _ _ _ (good_word h) (good_word h') (good_afterP esc h hr) (good_afterP esc h' hr') e
    have ek := congrArg code e2
    rw [code_afterP esc h hr, code_afterP esc h' hr'] at ek
    match t', h', e1, e2, ek with
    | .node .list .nil, h', e1, e2, _ => exact ⟨rfl, List.append_cancel_left e2⟩
    | .node .list (.cons l' v' rest'), h', e1, e2, _ =>
      exact absurd (List.cons.inj (List.cons.inj e2).2).1 (by decide)
    | .atom _, _, _, _, ek => simp [Dbg.kindNo] at ek
    | .str _, _, _, _, ek => simp [Dbg.kindNo] at ek
    | .node (.struct _ _) _, _, _, _, ek => simp [Dbg.kindNo] at ek
    | .node (.tuple _) _, _, _, _, ek => simp [Dbg.kindNo] at ek
  | .node .list (.cons l v rest), t', r, r', h, h', hr, hr', e => by
    rw [pretty_split esc _ h, pretty_split esc t' h'] at e
    obtain ⟨e1, e2⟩ := span_eq wordByte _ _ _ _ (good_word h) (good_word h') (good_afterP esc h hr) (good_afterP esc h' hr') e
    have ek := congrArg code e2
    rw [code_afterP esc h hr, code_afterP esc h' hr'] at ek
    match t', h', e1, e2, ek with
    | .node .list .nil, h', e1, e2, _ =>
      exact absurd (List.cons.inj (List.cons.inj e2).2).1 (by decide)
    | .node .list (.cons l' v' rest'), h', e1, e2, _ =>
      obtain ⟨e3, e4⟩ := flat_inj_of_pad esc (.cons l v rest) (.cons l' v' rest') 0x5D (by decide) r r' (List.append_cancel_left e2)
      have := flat_inj esc false (.cons l v rest) (.cons l' v' rest') h h' e3
      rw [this]
      exact ⟨rfl, e4⟩
    | .atom _, _, _, _, ek => simp [Dbg.kindNo] at ek
    | .str _, _, _, _, ek => simp [Dbg.kindNo] at ek
    | .node (.struct _ _) _, _, _, _, ek => simp [Dbg.kindNo] at ek
    | .node (.tuple _) _, _, _, _, ek => simp [Dbg.kindNo] at ek
  termination_by t => sizeOf t
theorem flat_inj (esc : Nat → Bool) (named : Bool) : ∀ (i i' : Items), Items.Good named i → Items.Good named i' →
    Items.flat esc i = Items.flat esc i' → i = i'
  | .nil, .nil, _, _, e => rfl
  | .nil, .cons l v rest, _, _, e => by
    rw [Items.flat, Items.flat] at e
    have := congrArg List.length e
    simp at this
  | .cons l v rest, .nil, _, _, e => by
    rw [Items.flat, Items.flat] at e
    have := congrArg List.length e
    simp at this
  | .cons l v rest, .cons l' v' rest', h, h', e => by
    rw [Items.flat, Items.flat] at e
    obtain ⟨hl, hv, hi⟩ := h
    obtain ⟨hl', hv', hi'⟩ := h'
    obtain ⟨rfl, e3⟩ := label_inj hl hl' e
    obtain ⟨rfl, e4⟩ := pretty_inj esc v v' _ _ hv hv' (.comma _) (.comma _) e3
    obtain rfl := flat_inj esc named rest rest' hi hi' (by simpa using e4)
    rfl
  termination_by i => sizeOf i
end

end Tmi.Proofs
