import Verif.Model.Spreading
import Verif.Spec.Spreading
/-! # What the collector observes of a droplet history -/
namespace Strata.Spreading
open Strata.Spec

/-- The program observes the droplet history `hist` (one entry per map, `none` if the map has no
droplet) in a box of length `B`: it sees wrapped positions. -/
def Observes (B : ℚ) (frames : List Frame) (hist : List (Option (ℚ × ℚ))) : Prop :=
  frames.map Frame.edges = hist.map (Option.map fun p => (wrap B p.1, wrap B p.2)) ∧
    ∀ f ∈ frames, f.box = B

/-- The maps on which a droplet was found. -/
def detected (frames : List Frame) : List Frame := frames.filter fun f => f.edges.isSome

/-- The first map on which a droplet was found, with its position in the series. -/
def firstDetected (frames : List Frame) : Option (Frame × ℕ) :=
  frames.zipIdx.find? fun f => f.1.edges.isSome

end Strata.Spreading
