import Verif.Model.Report
import Verif.Spec.Report
import Verif.Spec.Assignment

/-!
A reader of the listing of boardings and alightings: it goes through the lines and notes the route, the table and the direction
under which each stop is written.
-/

namespace Sidermit

/-- a stop of the listing: the route, whether it is a boarding, the direction, and what is written after "Stop " -/
structure Listed where
  route : Str
  boarding : Bool
  dir : Str
  text : Str
  deriving DecidableEq

/-- reads the lines, below the last seen route, table and direction -/
def readListing : Str → Bool → Str → List Str → List Listed
  | _, _, _, [] => []
  | r, b, d, line :: rest =>
    match after "New route: ".toList line with
    | some r' => readListing r' b d rest
    | none =>
      if line = "\tBoarding:".toList then readListing r true d rest
      else if line = "\tAlighting:".toList then readListing r false d rest
      else
        match after "\t\tDirection: ".toList line with
        | some d' => readListing r b d' rest
        | none =>
          match after "\t\t\tStop ".toList line with
          | some t => ⟨r, b, d, t⟩ :: readListing r b d rest
          | none => readListing r b d rest

variable {K : Type} [Field K] [LinearOrder K] [FloorRing K]

/-- an entry of a table as it should be listed -/
def listed (b : Bool) (p : LoadKey K × K) : Listed :=
  ⟨p.1.1, b, match p.1.2.1 with | .I => ['I'] | .R => ['R'],
    p.1.2.2.mode.name ++ '-' :: p.1.2.2.city.node.name ++ ": ".toList ++ fixed 2 p.2 ++ "[pax/veh]".toList⟩

/-- names without line breaks -/
def PlainKeys (d : Dict (LoadKey K) K) : Prop :=
  ∀ p ∈ d, (∀ c ∈ p.1.1, c ≠ '\n') ∧ (∀ c ∈ p.1.2.2.mode.name, c ≠ '\n') ∧ ∀ c ∈ p.1.2.2.city.node.name, c ≠ '\n'

end Sidermit
