/-
The faults of the parser are panics: none is a load outside of the string or a misaligned load.
-/
import Verif.Proofs.Mem
import Verif.Props.Vector

namespace Tmi.Proofs
open Tmi.Model Tmi.Spec Tmi.Props

/-- The faults that are panics of the code: a slice at a wrong place, a full array, an overflow. -/
def Panics {α : Type} (x : R α) : Prop := ∀ e, x = .error e → e = .slice ∨ e = .full ∨ e = .overflow

section
variable {α β : Type}

theorem Panics.bind {x : R α} {f : α → R β} (hx : Panics x) (hf : ∀ a, Panics (f a)) : Panics (x >>= f) := by
  intro e h
  cases x with
  | ok a => exact hf a e h
  | error e' => cases h; exact hx _ rfl

theorem Panics.ok (a : α) : Panics (.ok a : R α) := fun _ h => by cases h

theorem Panics.ite {c : Prop} [Decidable c] {x y : R α} (hx : Panics x) (hy : Panics y) : Panics (if c then x else y) := by
  split
  · exact hx
  · exact hy

theorem panics_strFrom (s : Bytes) (i : Nat) : Panics (strFrom s i) :=
  .ite (.ok _) fun e h => by cases h; exact .inl rfl

theorem panics_usub (i j : Nat) : Panics (usub i j) :=
  .ite (.ok _) fun e h => by cases h; exact .inr (.inr rfl)

theorem panics_addU32 (c : Bool) (i j : Nat) : Panics (addU32 c i j) :=
  .ite (.ok _) (.ite (fun e h => by cases h; exact .inr (.inr rfl)) (.ok _))

theorem panics_mkPair (c : Bool) (i j k : Nat) : Panics (mkPair c i j k) :=
  .bind (panics_addU32 _ _ _) fun _ => .bind (panics_usub _ _) fun _ => .bind (panics_usub _ _) fun _ => .ok _

theorem panics_pushTag (l : List TagPair) (t : TagPair) : Panics (pushTag l t) :=
  .ite (.ok _) fun e h => by cases h; exact .inr (.inl rfl)

theorem panics_strSlice (s : Bytes) (i j : Nat) : Panics (strSlice s i j) := by
  unfold strSlice
  exact .ite (.ok _) fun e h => by cases h; exact .inl rfl

theorem panics_scalarLoop (c : Bool) : ∀ (rest : Bytes) (i : Nat) (st : TState) (l : List TagPair),
    Panics (scalarLoop c rest i st l)
  | [], _, _, _ => .ok _
  | x :: rest, i, st, l => by
    unfold scalarLoop
    refine .ite ?_ (.ite ?_ (.ite ?_ (panics_scalarLoop c rest _ _ _)))
    · cases st <;> exact panics_scalarLoop c rest _ _ _
    · cases st
      · exact panics_scalarLoop c rest _ _ _
      · exact .bind (panics_mkPair _ _ _ _) fun _ => .bind (panics_pushTag _ _) fun _ => panics_scalarLoop c rest _ _ _
    · cases st
      · exact .ok _
      · exact .bind (panics_mkPair _ _ _ _) fun _ => .bind (panics_pushTag _ _) fun _ => .ok _

theorem panics_parseTags (b : Build) (s : Bytes) : Panics (parseTags b s 0) := by
  obtain ⟨p, checks⟩ := b
  cases p with
  | scalar =>
    refine .bind (panics_strFrom _ _) fun r => ?_
    cases r with
    | nil => exact .ok _
    | cons c r => exact .ite (.bind (panics_scalarLoop _ _ _ _ _) fun _ => .ok _) (.ok _)
  | simd a addr =>
    intro e h
    exact .inr (C06_loads_safe a addr checks s e h)

theorem panics_parse (b : Build) (s : Bytes) : Panics (MsgRef.parse b s) := by
  refine .bind (panics_parseTags b s) fun x => .bind ?_ fun y => .bind ?_ fun z => ?_
  · refine .bind (panics_strFrom _ _) fun r => .ite (.ok _) ?_
    dsimp only
    split <;> exact .ok _
  · refine .bind (panics_strFrom _ _) fun r => ?_
    refine .bind (panics_strSlice _ _ _) fun t => ?_
    split
    · exact .ok _
    · exact .ite (.ok _) (.ok _)
  · obtain ⟨c, p⟩ := z
    cases c with
    | none => exact .ok _
    | some c =>
      refine .bind ?_ fun u => .bind ?_ fun v => .ok _
      · refine .bind (panics_strFrom _ _) fun r => .ite (.bind (panics_strFrom _ _) fun t => ?_) (.ok _)
        split <;> exact .ok _
      · exact .bind (panics_strFrom _ _) fun r => .ite (.ok _) (.ok _)

end

end Tmi.Proofs
