/-
What the maps and sets of the standard library need from the keys put into them.
-/
import Verif.Model.Keys

namespace Tmi.Spec
open Tmi.Model (HashCall)

/-- `cmp` is a total order in which two values are equal only if they are the same value. -/
structure TotalOrder {α : Type} (cmp : α → α → Ordering) : Prop where
  eq : ∀ a b, cmp a b = .eq ↔ a = b
  swap : ∀ a b, cmp b a = (cmp a b).swap
  trans : ∀ a b c, cmp a b = .lt → cmp b c = .lt → cmp a c = .lt

/-- `a` is before `b` in the dictionary: it is the beginning of `b`, or has the smaller byte at the first place where
they differ. -/
def Before (a b : Bytes) : Prop :=
  (∃ y t, b = a ++ y :: t) ∨ ∃ p x y s t, a = p ++ x :: s ∧ b = p ++ y :: t ∧ x.toNat < y.toNat

/-- Looking up with a key `q` of the type `β` in a map whose keys have the type `α` works: `q` is equal to what a key
borrows as, is ordered like it and is hashed like it, exactly as the key itself. -/
structure Borrows {α β : Type} (borrow : α → β) (eqα : α → α → Bool) (eqβ : β → β → Bool)
    (cmpα : α → α → Ordering) (cmpβ : β → β → Ordering) (hashα : α → List HashCall) (hashβ : β → List HashCall) : Prop where
  eq : ∀ a b, eqα a b = eqβ (borrow a) (borrow b)
  cmp : ∀ a b, cmpα a b = cmpβ (borrow a) (borrow b)
  hash : ∀ a, hashα a = hashβ (borrow a)

/-- The bytes that a hasher is fed with (`isize` is 64 bits wide, the machine little-endian). -/
def fed : List HashCall → Bytes
  | [] => []
  | .bytes bs :: cs => bs ++ fed cs
  | .byte n :: cs => UInt8.ofNat n :: fed cs
  | .discr n :: cs => (List.range 8).map (fun i => UInt8.ofNat (n / 256 ^ i)) ++ fed cs
  | .u32 n :: cs => (List.range 4).map (fun i => UInt8.ofNat (n / 256 ^ i)) ++ fed cs

end Tmi.Spec
