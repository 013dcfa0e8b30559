/-
Conformance of the model with the project's own tests: what an example says.
-/
import Verif.Model.Debug

namespace Tmi.Conform
open Tmi.Model

/-- The text `{:#?}` prints of the typed message parsed from a line, if it is one.  No character of the
recorded outputs is escaped for not being printable. -/
def printed {T : Type} (parse : MsgRef → R (Option T)) (dbg : T → Dbg) (b : Build) (line : Bytes) : R (Option Bytes) := do
  match ← MsgRef.parse b line with
  | none => return none
  | some m => return (← parse m).map fun v => (dbg v).pretty fun _ => false

/-- Parsing `line` gives a message of which `{:#?}` prints `text`, with the scalar and with a vector search. -/
def Prints {T : Type} (parse : MsgRef → R (Option T)) (dbg : T → Dbg) (line text : Bytes) : Prop :=
  printed parse dbg ⟨.scalar, true⟩ line = .ok (some text) ∧
  printed parse dbg ⟨.simd .avx2 5, true⟩ line = .ok (some text)

instance {T : Type} (parse : MsgRef → R (Option T)) (dbg : T → Dbg) (line text : Bytes) : Decidable (Prints parse dbg line text) :=
  inferInstanceAs (Decidable (_ ∧ _))

end Tmi.Conform
