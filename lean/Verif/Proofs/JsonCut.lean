/-
Reading a JSON text of which more follows, and texts that were cut off.
-/
import Verif.Proofs.JsonStr

namespace Tmi.Proofs
open Tmi.Spec Tmi.Model

theorem j_map_some {α β γ : Type} {o : Option (α × γ)} {f : α → β} {s : β} {r : γ}
    (h : (o.map fun (x, r) => (f x, r)) = some (s, r)) : ∃ x, o = some (x, r) ∧ f x = s := by
  cases o with
  | none => cases h
  | some p => obtain ⟨x, r'⟩ := p; cases h; exact ⟨x, rfl, rfl⟩

theorem j_string_more (q : Bytes) : ∀ (p s r : Bytes), Json.readString p = some (s, r) →
    Json.readString (p ++ q) = some (s, r ++ q) := by
  intro p
  fun_induction Json.readString p with
  | case2 r0 =>
    intro s r h
    cases h
    exact j_string [] (r0 ++ q)
  | case7 a b c d n hn h1 h2 e f g h r0 m hm h3 ih =>
    intro s r hs
    obtain ⟨x, hx, rfl⟩ := j_map_some hs
    simp only [List.cons_append]
    rw [Json.readString.eq_def]
    simp only [hn, h1, h2, hm, h3, if_true, if_false, ih _ _ hx, Option.map_some, and_self]
  | case10 a b c d r0 n hn h1 h2 ih =>
    intro s r hs
    obtain ⟨x, hx, rfl⟩ := j_map_some hs
    simp only [List.cons_append]
    rw [Json.readString.eq_def]
    simp only [hn, h1, h2, if_false, ih _ _ hx, Option.map_some]
  | case12 e r0 hne x hx ih =>
    intro s r hs
    obtain ⟨y, hy, rfl⟩ := j_map_some hs
    have he : e ≠ 0x75 := by rintro rfl; cases hx
    simp only [List.cons_append]
    rw [j_simple he hx, ih _ _ hy]
    rfl
  | case14 x r0 h1 h2 h3 h4 h5 ih =>
    intro s r hs
    obtain ⟨y, hy, rfl⟩ := j_map_some hs
    have h92 : x ≠ 0x5C := by
      rintro rfl
      cases r0 with
      | nil => exact h2 rfl rfl
      | cons e r => exact h4 e r rfl rfl
    have := j_byte x (r0 ++ q)
    have hp : Model.Json.plain x = true := (j_plain_iff x).2 (fun h => h.elim h1 (fun h => h.elim h92 h5))
    rw [j_escape_plain hp, List.singleton_append] at this
    rw [List.cons_append, this, ih _ _ hy]
    rfl
  | _ => intro s r h; cases h

theorem j_blank_more {p r : Bytes} {c : UInt8} (h : Json.blank p = c :: r) (q : Bytes) :
    Json.blank (p ++ q) = c :: (r ++ q) := by
  unfold Json.blank at *
  rw [List.dropWhile_append, h]
  rfl

theorem j_while_more {f : UInt8 → Bool} {t : Bytes} (h : t.dropWhile f ≠ []) (q : Bytes) :
    (t ++ q).takeWhile f = t.takeWhile f ∧ (t ++ q).dropWhile f = t.dropWhile f ++ q := by
  induction t with
  | nil => exact absurd rfl h
  | cons x t ih =>
    by_cases hx : f x = true
    · simp only [List.dropWhile_cons, hx, if_true] at h
      simp only [List.cons_append, List.takeWhile_cons, List.dropWhile_cons, hx, if_true, ih h, and_self]
    · simp [hx]

theorem j_nat_more {t r : Bytes} {n : Nat} (h : Json.readNat t = some (n, r)) (hr : r ≠ []) (q : Bytes) :
    Json.readNat (t ++ q) = some (n, r ++ q) := by
  unfold Json.readNat at h ⊢
  dsimp only at h ⊢
  have hd : t.dropWhile Json.isDigit = r := by
    split at h
    · cases h
    · split at h
      · cases h
      · split at h
        · cases h
        · cases h; rfl
  obtain ⟨e1, e2⟩ := j_while_more (f := Json.isDigit) (t := t) (by rw [hd]; exact hr) q
  have e3 : (r ++ q).head? = r.head? := by cases r with
    | nil => exact absurd rfl hr
    | cons x r => rfl
  rw [e1, e2, hd, e3]
  rw [hd] at h
  split at h
  · cases h
  · rename_i h1
    rw [if_neg h1]
    split at h
    · cases h
    · rename_i h2
      rw [if_neg h2]
      split at h
      · cases h
      · rename_i h3
        rw [if_neg h3]
        cases h
        rfl

theorem j_int_more {t r : Bytes} {n : Int} (h : Json.readInt t = some (n, r)) (hr : r ≠ []) (q : Bytes) :
    Json.readInt (t ++ q) = some (n, r ++ q) := by
  cases t with
  | nil => cases h
  | cons c t =>
    by_cases hc : c = 0x2D
    · subst hc
      simp only [Json.readInt, List.cons_append] at h ⊢
      obtain ⟨⟨m, r'⟩, hm, h⟩ := Option.bind_eq_some_iff.1 h
      dsimp only at h
      split at h
      · cases h
      · rename_i h0
        cases h
        rw [j_nat_more hm hr q]
        simp [h0]
    · have e : ∀ t : Bytes, Json.readInt (c :: t) = (Json.readNat (c :: t)).map fun (n, r) => ((n : Int), r) := by
        intro t
        unfold Json.readInt
        split
        · rename_i heq; exact absurd (List.cons.inj heq).1 hc
        · rfl
      rw [e] at h
      obtain ⟨m, hm, rfl⟩ := j_map_some h
      rw [List.cons_append, e, ← List.cons_append, j_nat_more hm hr q]
      rfl

theorem j_word {w t r : Bytes} (h : Json.word w t = some r) : t = w ++ r := by
  unfold Json.word at h
  split at h
  · rename_i hw
    cases h
    conv => lhs; rw [← List.take_append_drop w.length t, hw]
  · cases h

theorem j_word_append (w r : Bytes) : Json.word w (w ++ r) = some r := by
  unfold Json.word
  simp

/-- A number is over only when something follows. -/
def Over (v : Value) (r : Bytes) : Prop := ∀ n, v = .num n → r ≠ []

theorem j_elems_cons {n : Nat} {r r' : Bytes} {vs : List Value} (h : Json.readElems n r = some (vs, r')) : r ≠ [] := by
  rintro rfl
  cases n <;> simp [Json.readElems, Json.blank] at h

theorem j_entries_cons {n : Nat} {r r' : Bytes} {vs : List (Bytes × Value)} (h : Json.readEntries n r = some (vs, r')) :
    r ≠ [] := by
  rintro rfl
  cases n <;> simp [Json.readEntries, Json.blank] at h

theorem j_head_more {r : Bytes} {c : UInt8} (q : Bytes) :
    (Json.blank r).head? = some c → (Json.blank (r ++ q)).head? = some c ∧
      (Json.blank (r ++ q)).tail = (Json.blank r).tail ++ q := by
  intro h
  cases hb : Json.blank r with
  | nil => rw [hb] at h; cases h
  | cons x r' =>
    rw [hb] at h
    rw [j_blank_more hb]
    exact ⟨h, rfl⟩

theorem j_head_other {r : Bytes} {c : UInt8} (q : Bytes) (hne : Json.blank r ≠ []) :
    ¬(Json.blank r).head? = some c → ¬(Json.blank (r ++ q)).head? = some c := by
  intro h
  cases hb : Json.blank r with
  | nil => exact absurd hb hne
  | cons x r' =>
    rw [hb] at h
    rw [j_blank_more hb]
    exact h

theorem j_value_cons {n : Nat} {r r' : Bytes} {v : Value} (h : Json.readValue n r = some (v, r')) : Json.blank r ≠ [] := by
  intro hb
  cases n <;> simp [Json.readValue, hb] at h

theorem j_entry_cons {n : Nat} {r r' : Bytes} {v : Bytes × Value} (h : Json.readEntry n r = some (v, r')) :
    Json.blank r ≠ [] := by
  intro hb
  cases n <;> simp [Json.readEntry, hb] at h

theorem j_more (q : Bytes) : ∀ n,
    (∀ p v r, Json.readValue n p = some (v, r) → Over v r → Json.readValue n (p ++ q) = some (v, r ++ q)) ∧
    (∀ p vs r, Json.readElems n p = some (vs, r) → Json.readElems n (p ++ q) = some (vs, r ++ q)) ∧
    (∀ p kv r, Json.readEntry n p = some (kv, r) → Over kv.2 r → Json.readEntry n (p ++ q) = some (kv, r ++ q)) ∧
    (∀ p kvs r, Json.readEntries n p = some (kvs, r) → Json.readEntries n (p ++ q) = some (kvs, r ++ q)) := by
  intro n
  induction n with
  | zero => refine ⟨?_, ?_, ?_, ?_⟩ <;> intro p v r h <;> simp [Json.readValue, Json.readElems, Json.readEntry, Json.readEntries] at h
  | succ n ih =>
    obtain ⟨iv, ie, iy, ies⟩ := ih
    refine ⟨?_, ?_, ?_, ?_⟩
    · intro p v r h ho
      unfold Json.readValue at h ⊢
      cases hb : Json.blank p with
      | nil => rw [hb] at h; cases h
      | cons c t =>
        rw [hb] at h
        rw [j_blank_more hb]
        dsimp only at h ⊢
        by_cases h1 : c = 0x22
        · rw [if_pos h1] at h ⊢
          obtain ⟨s, hs, rfl⟩ := j_map_some h
          rw [j_string_more q _ _ _ hs]
          rfl
        rw [if_neg h1] at h ⊢
        by_cases h2 : c = 0x5B
        · rw [if_pos h2] at h ⊢
          by_cases h3 : (Json.blank t).head? = some 0x5D
          · obtain ⟨e1, e2⟩ := j_head_more q h3
            rw [if_pos h3] at h
            rw [if_pos e1, e2]
            cases h
            rfl
          · rw [if_neg h3] at h
            cases hv : Json.readValue n t with
            | none => rw [hv] at h; cases h
            | some vr =>
              obtain ⟨v0, r0⟩ := vr
              rw [hv] at h
              dsimp only at h
              obtain ⟨vs, hvs, rfl⟩ := j_map_some (f := fun vs => Value.seq (v0 :: vs)) h
              rw [if_neg (j_head_other q (j_value_cons hv) h3), iv _ _ _ hv (fun _ _ => j_elems_cons hvs)]
              dsimp only
              rw [ie _ _ _ hvs]
              rfl
        rw [if_neg h2] at h ⊢
        by_cases h4 : c = 0x7B
        · rw [if_pos h4] at h ⊢
          by_cases h3 : (Json.blank t).head? = some 0x7D
          · obtain ⟨e1, e2⟩ := j_head_more q h3
            rw [if_pos h3] at h
            rw [if_pos e1, e2]
            cases h
            rfl
          · rw [if_neg h3] at h
            cases hv : Json.readEntry n t with
            | none => rw [hv] at h; cases h
            | some vr =>
              obtain ⟨v0, r0⟩ := vr
              rw [hv] at h
              dsimp only at h
              obtain ⟨vs, hvs, rfl⟩ := j_map_some (f := fun vs => Value.map (v0 :: vs)) h
              rw [if_neg (j_head_other q (j_entry_cons hv) h3), iy _ _ _ hv (fun _ _ => j_entries_cons hvs)]
              dsimp only
              rw [ies _ _ _ hvs]
              rfl
        rw [if_neg h4] at h ⊢
        by_cases h5 : c = 0x2D ∨ Json.isDigit c = true
        · rw [if_pos h5] at h ⊢
          obtain ⟨m, hm, rfl⟩ := j_map_some h
          rw [← List.cons_append, j_int_more hm (ho m rfl)]
          rfl
        rw [if_neg h5] at h ⊢
        rw [← List.cons_append]
        split at h
        · rename_i hw
          rw [j_word hw, List.append_assoc, j_word_append]
          cases h; rfl
        · rename_i hw _
          cases h
          rw [j_word hw]
          rfl
        · rename_i hw _ _
          cases h
          rw [j_word hw]
          rfl
        · cases h
    · intro p vs r h
      unfold Json.readElems at h ⊢
      cases hb : Json.blank p with
      | nil => rw [hb] at h; cases h
      | cons c t =>
        rw [hb] at h
        rw [j_blank_more hb]
        dsimp only at h ⊢
        by_cases h1 : c = 0x5D
        · rw [if_pos h1] at h ⊢
          cases h; rfl
        rw [if_neg h1] at h ⊢
        by_cases h2 : c = 0x2C
        · rw [if_pos h2] at h ⊢
          cases hv : Json.readValue n t with
          | none => rw [hv] at h; cases h
          | some vr =>
            obtain ⟨v0, r0⟩ := vr
            rw [hv] at h
            dsimp only at h
            obtain ⟨vs, hvs, rfl⟩ := j_map_some h
            rw [iv _ _ _ hv (fun _ _ => j_elems_cons hvs)]
            dsimp only
            rw [ie _ _ _ hvs]
            rfl
        · rw [if_neg h2] at h; cases h
    · intro p kv r h ho
      unfold Json.readEntry at h ⊢
      cases hb : Json.blank p with
      | nil => rw [hb] at h; cases h
      | cons c t =>
        rw [hb] at h
        rw [j_blank_more hb]
        dsimp only at h ⊢
        by_cases h1 : c = 0x22
        · rw [if_pos h1] at h ⊢
          cases hs : Json.readString t with
          | none => rw [hs] at h; cases h
          | some sr =>
            obtain ⟨s, r0⟩ := sr
            rw [hs] at h
            rw [j_string_more q _ _ _ hs]
            dsimp only at h ⊢
            cases hb2 : Json.blank r0 with
            | nil => rw [hb2] at h; cases h
            | cons c2 t2 =>
              rw [hb2] at h
              rw [j_blank_more hb2]
              dsimp only at h ⊢
              by_cases h2 : c2 = 0x3A
              · rw [if_pos h2] at h ⊢
                obtain ⟨v, hv, rfl⟩ := j_map_some h
                rw [iv _ _ _ hv ho]
                rfl
              · rw [if_neg h2] at h; cases h
        · rw [if_neg h1] at h; cases h
    · intro p vs r h
      unfold Json.readEntries at h ⊢
      cases hb : Json.blank p with
      | nil => rw [hb] at h; cases h
      | cons c t =>
        rw [hb] at h
        rw [j_blank_more hb]
        dsimp only at h ⊢
        by_cases h1 : c = 0x7D
        · rw [if_pos h1] at h ⊢
          cases h; rfl
        rw [if_neg h1] at h ⊢
        by_cases h2 : c = 0x2C
        · rw [if_pos h2] at h ⊢
          cases hv : Json.readEntry n t with
          | none => rw [hv] at h; cases h
          | some vr =>
            obtain ⟨v0, r0⟩ := vr
            rw [hv] at h
            dsimp only at h
            obtain ⟨vs, hvs, rfl⟩ := j_map_some h
            rw [iy _ _ _ hv (fun _ _ => j_entries_cons hvs)]
            dsimp only
            rw [ies _ _ _ hvs]
            rfl
        · rw [if_neg h2] at h; cases h

/-- How much of the text may be looked at does not matter if it is enough. -/
theorem j_fuel : ∀ n,
    (∀ p x, Json.readValue n p = some x → Json.readValue (n + 1) p = some x) ∧
    (∀ p x, Json.readElems n p = some x → Json.readElems (n + 1) p = some x) ∧
    (∀ p x, Json.readEntry n p = some x → Json.readEntry (n + 1) p = some x) ∧
    (∀ p x, Json.readEntries n p = some x → Json.readEntries (n + 1) p = some x) := by
  intro n
  induction n with
  | zero => refine ⟨?_, ?_, ?_, ?_⟩ <;> intro p x h <;> simp [Json.readValue, Json.readElems, Json.readEntry, Json.readEntries] at h
  | succ n ih =>
    obtain ⟨iv, ie, iy, ies⟩ := ih
    refine ⟨?_, ?_, ?_, ?_⟩
    · intro p x h
      rw [Json.readValue] at h ⊢
      cases hb : Json.blank p with
      | nil => rw [hb] at h; cases h
      | cons c t =>
        rw [hb] at h
        dsimp only at h ⊢
        by_cases h1 : c = 0x22
        · rw [if_pos h1] at h ⊢; exact h
        rw [if_neg h1] at h ⊢
        by_cases h2 : c = 0x5B
        · rw [if_pos h2] at h ⊢
          by_cases h3 : (Json.blank t).head? = some 0x5D
          · rw [if_pos h3] at h ⊢; exact h
          · rw [if_neg h3] at h ⊢
            cases hv : Json.readValue n t with
            | none => rw [hv] at h; cases h
            | some vr =>
              obtain ⟨v0, r0⟩ := vr
              rw [hv] at h
              rw [iv _ _ hv]
              dsimp only at h ⊢
              cases he : Json.readElems n r0 with
              | none => rw [he] at h; cases h
              | some y => rw [he] at h; rw [ie _ _ he]; exact h
        rw [if_neg h2] at h ⊢
        by_cases h4 : c = 0x7B
        · rw [if_pos h4] at h ⊢
          by_cases h3 : (Json.blank t).head? = some 0x7D
          · rw [if_pos h3] at h ⊢; exact h
          · rw [if_neg h3] at h ⊢
            cases hv : Json.readEntry n t with
            | none => rw [hv] at h; cases h
            | some vr =>
              obtain ⟨v0, r0⟩ := vr
              rw [hv] at h
              rw [iy _ _ hv]
              dsimp only at h ⊢
              cases he : Json.readEntries n r0 with
              | none => rw [he] at h; cases h
              | some y => rw [he] at h; rw [ies _ _ he]; exact h
        rw [if_neg h4] at h ⊢
        exact h
    · intro p x h
      rw [Json.readElems] at h ⊢
      cases hb : Json.blank p with
      | nil => rw [hb] at h; cases h
      | cons c t =>
        rw [hb] at h
        dsimp only at h ⊢
        by_cases h1 : c = 0x5D
        · rw [if_pos h1] at h ⊢; exact h
        rw [if_neg h1] at h ⊢
        by_cases h2 : c = 0x2C
        · rw [if_pos h2] at h ⊢
          cases hv : Json.readValue n t with
          | none => rw [hv] at h; cases h
          | some vr =>
            obtain ⟨v0, r0⟩ := vr
            rw [hv] at h
            rw [iv _ _ hv]
            dsimp only at h ⊢
            cases he : Json.readElems n r0 with
            | none => rw [he] at h; cases h
            | some y => rw [he] at h; rw [ie _ _ he]; exact h
        · rw [if_neg h2] at h; cases h
    · intro p x h
      rw [Json.readEntry] at h ⊢
      cases hb : Json.blank p with
      | nil => rw [hb] at h; cases h
      | cons c t =>
        rw [hb] at h
        dsimp only at h ⊢
        by_cases h1 : c = 0x22
        · rw [if_pos h1] at h ⊢
          cases hs : Json.readString t with
          | none => rw [hs] at h; cases h
          | some sr =>
            obtain ⟨s, r0⟩ := sr
            rw [hs] at h
            dsimp only at h ⊢
            cases hb2 : Json.blank r0 with
            | nil => rw [hb2] at h; cases h
            | cons c2 t2 =>
              rw [hb2] at h
              dsimp only at h ⊢
              by_cases h2 : c2 = 0x3A
              · rw [if_pos h2] at h ⊢
                cases hv : Json.readValue n t2 with
                | none => rw [hv] at h; cases h
                | some y => rw [hv] at h; rw [iv _ _ hv]; exact h
              · rw [if_neg h2] at h; cases h
        · rw [if_neg h1] at h; cases h
    · intro p x h
      rw [Json.readEntries] at h ⊢
      cases hb : Json.blank p with
      | nil => rw [hb] at h; cases h
      | cons c t =>
        rw [hb] at h
        dsimp only at h ⊢
        by_cases h1 : c = 0x7D
        · rw [if_pos h1] at h ⊢; exact h
        rw [if_neg h1] at h ⊢
        by_cases h2 : c = 0x2C
        · rw [if_pos h2] at h ⊢
          cases hv : Json.readEntry n t with
          | none => rw [hv] at h; cases h
          | some vr =>
            obtain ⟨v0, r0⟩ := vr
            rw [hv] at h
            rw [iy _ _ hv]
            dsimp only at h ⊢
            cases he : Json.readEntries n r0 with
            | none => rw [he] at h; cases h
            | some y => rw [he] at h; rw [ies _ _ he]; exact h
        · rw [if_neg h2] at h; cases h

theorem j_fuel_le {n m : Nat} (h : n ≤ m) {p : Bytes} {x : Value × Bytes} (hx : Json.readValue n p = some x) :
    Json.readValue m p = some x := by
  induction m with
  | zero => rw [Nat.le_zero.1 h] at hx; exact hx
  | succ m ih =>
    by_cases he : n = m + 1
    · rw [← he]; exact hx
    · exact (j_fuel m).1 _ _ (ih (by omega))

/-- The text of an object of which the end is missing is no JSON text. -/
theorem j_cut {kvs : List (Bytes × Value)} {p q : Bytes} (h : Model.Json.text (.map kvs) = p ++ q) (hq : q ≠ []) :
    Json.read p = none := by
  cases hr : Json.read p with
  | none => rfl
  | some v =>
    exfalso
    unfold Json.read at hr
    split at hr
    · rename_i v' r hv
      split at hr
      · cases hr
        have hp : p ≠ [] := by
          rintro rfl
          exact j_value_cons hv rfl
        obtain ⟨c, p', rfl⟩ := List.exists_cons_of_ne_nil hp
        have hc : c = 0x7B := by
          rw [Model.Json.text] at h
          exact (List.cons.inj h).1.symm
        subst hc
        have ho : Over v r := by
          rintro n rfl
          rw [Json.readValue, blank_cons (by decide)] at hv
          dsimp only at hv
          rw [if_neg (by decide), if_neg (by decide), if_pos rfl] at hv
          split at hv
          · cases hv
          · split at hv
            · cases hv
            · rename_i r0 _
              generalize Json.readEntries _ r0 = o at hv
              cases o <;> cases hv
        have h1 := (j_more q _).1 _ _ _ hv ho
        rw [← h] at h1
        have h2 := j_value (.map kvs) ((Model.Json.text (.map kvs)).length + 1) [] (Nat.lt_succ_self _) (.inl rfl)
        rw [List.append_nil] at h2
        have h3 := j_fuel_le (m := (Model.Json.text (.map kvs)).length + 1) (by rw [h]; simp) h1
        rw [h2] at h3
        have := congrArg Prod.snd (Option.some.inj h3)
        exact hq (List.append_eq_nil_iff.1 this.symm).2
      · cases hr
    · cases hr

end Tmi.Proofs
