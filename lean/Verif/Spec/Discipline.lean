import Verif.Stack
/-
  What a well-behaved sequence of notifications is.
-/
namespace SSP21.Spec
open SSP21.Stack

/-- The effect of a notification. -/
def openStep (isOpen : Bool) : Signal → Bool
  | .opened => true
  | .closed => false
  | _ => isOpen

/-- Whether the last opened/closed notification is "opened". -/
def openAfter (l : List Signal) : Bool := l.foldl openStep false

/-- "opened" only while closed, everything else only while open. -/
def Admissible (before : List Signal) : Signal → Prop
  | .opened => openAfter before = false
  | _ => openAfter before = true

/-- Every notification comes at a moment when it may. So opened and closed alternate, beginning with opened, and
readiness is notified only between an opened and the next closed. -/
def Disciplined (l : List Signal) : Prop := ∀ before x after, l = before ++ x :: after → Admissible before x

end SSP21.Spec
