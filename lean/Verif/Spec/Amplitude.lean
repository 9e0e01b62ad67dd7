import Verif.Model.Signal.Types
import Verif.Spec.Contributions

/-! # Specification: switching one effect, effects without amplitude -/

namespace Coffe

/-- The set of effects with `e` switched on or off. -/
def Contrib.set (c : Contrib) (e : Effect) (b : Bool) : Contrib :=
  match e with
  | .den => { c with den := b } | .rsd => { c with rsd := b } | .len => { c with len := b }
  | .d1 => { c with d1 := b } | .d2 => { c with d2 := b } | .g1 => { c with g1 := b }
  | .g2 => { c with g2 := b } | .g3 => { c with g3 := b } | .g4 => { c with g4 := b }
  | .g5 => { c with g5 := b }

/-- Does the set contain an effect that needs the divergent integral?  (The program derives its `divergent`
setting from the effects in this way: src/parser.c:1478-1484, python/coffe/coffe.pyx:1108-1109.) -/
def Contrib.needsDivergent (c : Contrib) : Bool :=
  c.has .d2 || c.has .g1 || c.has .g2 || c.has .g3 || c.has .g4 || c.has .g5

/-- The settings after switching `e` on or off. -/
def Par.switch (par : Par) (e : Effect) (b : Bool) : Par :=
  { par with correlation_contrib := par.correlation_contrib.set e b,
             divergent := (par.correlation_contrib.set e b).needsDivergent }

/-- The Doppler prefactor vanishes for both populations. -/
def NoDoppler (bg : Bg) : Prop := ∀ z, bg.G1 z = 0 ∧ bg.G2 z = 0

/-- The magnification prefactor `5 s - 2` vanishes for both populations. -/
def NoMagnification (par : Par) : Prop :=
  ∀ z, 5 * par.magnification_bias1 z - 2 = 0 ∧ 5 * par.magnification_bias2 z - 2 = 0

/-- The potential does not evolve: the growth rate is one. -/
def NoEvolution (bg : Bg) : Prop := ∀ z, bg.f z = 1

end Coffe
