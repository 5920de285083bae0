import Verif.Model.Plot

/-!
Specification: what a drawing shows.
-/

namespace Sidermit

variable {K : Type}

/-- the colours of the picture -/
def colourOf : Kind → Str
  | .cbd => "purple".toList
  | .periphery => "red".toList
  | .subcenter => "blue".toList

/-- the nodes drawn in a colour -/
def Drawing.nodesIn (d : Drawing K) (colour : Str) : List Int :=
  d.calls.flatMap fun c => match c with
    | .nodes ids co => if co = colour then ids else []
    | _ => []

/-- the edges drawn in a colour -/
def Drawing.edgesIn (d : Drawing K) (colour : Str) : List (Int × Int) :=
  d.calls.flatMap fun c => match c with
    | .edges ids co => if co = colour then ids else []
    | _ => []

/-- the nodes with a label -/
def Drawing.labelled (d : Drawing K) : List Int :=
  d.calls.flatMap fun c => match c with
    | .labels ids => ids
    | _ => []

/-- the nodes that the call looks up in the dictionary of positions -/
def DrawCall.needs : DrawCall → List Int
  | .nodes ids _ => ids
  | .labels ids => ids
  | .edges ids _ => ids.flatMap fun p => [p.1, p.2]

/-- every node drawn has a position; NetworkX cannot draw the others -/
def Drawing.Complete (d : Drawing K) : Prop := ∀ c ∈ d.calls, ∀ a ∈ c.needs, (d.position.get? a).isSome

end Sidermit
