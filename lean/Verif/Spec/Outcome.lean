import Verif.Model.Base
/-! The three ways a call can end. -/
namespace MBus.Spec

/-- A call gives an answer, reports an error, or crashes. -/
inductive Outcome where
  | answered
  | refused
  | crashed
  deriving DecidableEq, Repr

/-- How a call ended. -/
def outcome {ε α : Type} : Res ε α → Outcome
  | .ok _ => .answered
  | .err _ => .refused
  | .panic => .crashed

end MBus.Spec
