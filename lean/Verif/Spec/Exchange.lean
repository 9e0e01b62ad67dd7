import Verif.Model.Signal.Types

/-!
# Specification vocabulary: exchanging the two galaxy populations

`swap` is what a user does by exchanging every population-1 quantity with the corresponding
population-2 quantity: the biases in the parameters, and (because they are computed from those
biases) the two Doppler amplitudes `G1`, `G2` of the background.
-/

namespace Coffe

/-- Exchange the two galaxy populations in the parameters. -/
abbrev Par.swap (p : Par) : Par :=
  { p with
    galaxy_bias1 := p.galaxy_bias2, galaxy_bias2 := p.galaxy_bias1
    magnification_bias1 := p.magnification_bias2, magnification_bias2 := p.magnification_bias1
    evolution_bias1 := p.evolution_bias2, evolution_bias2 := p.evolution_bias1 }

/-- Exchange the two galaxy populations in the background. -/
abbrev Bg.swap (b : Bg) : Bg := { b with G1 := b.G2, G2 := b.G1 }

end Coffe
