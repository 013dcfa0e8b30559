/-
Specification of what a stream may still hold back.
-/
import Verif.Spec.Client

namespace Tmi.Spec
open Tmi.Model (Effect)

/-- What a stream that holds back `bytes` may hold back after one more effect: a flush forces everything out, a new
connection starts with nothing. -/
def hold (bytes : Bytes) : Effect → Bytes
  | .wrote bs => bytes ++ bs
  | .flush => []
  | .connected => []
  | _ => bytes

/-- The bytes the current connection has accepted and that no flush has forced out since. -/
def unflushed (l : List Effect) : Bytes := l.foldl hold []

end Tmi.Spec
