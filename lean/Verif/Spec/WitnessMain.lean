import Verif.Spec.Main
import Verif.Spec.WitnessParser
import Verif.Props.TextWrite

/-! # A concrete run -/

namespace Coffe

/-- One row of the background. -/
def wBgRow : BgRow := ⟨1, 1, 1, 1, 1, 1, 1, 1, 1, 1⟩

/-- An array with one entry. -/
noncomputable def wArray {κ : Type} (k : κ) : CArray κ := ⟨Buf.of (· < 1) fun _ => k, Buf.of (· < 1) fun _ => 1, 1⟩

/-- A program whose stages all give one entry. -/
noncomputable def wLib (c : Conf) : Lib Unit where
  rounding := halfUp
  read_conf _ := some c
  show_conf _ := ['x']
  have_class := false
  have_cuba := false
  window _ := 1
  default_spectrum := [(1, 1), (2, 1), (3, 1), (4, 1), (5, 1)]
  class_run := wRun
  time := []
  max_threads := 4
  background p := .ok ⟨p.background_bins.toNat, Buf.of (· < p.background_bins.toNat) fun _ => wBgRow⟩
  integrals _ _ := .ok ()
  corrfunc _ _ _ := .ok (wArray ⟨1, 0, 10⟩)
  multipoles _ _ _ := .ok (wArray ⟨1, 2, 10⟩)
  average_multipoles _ _ _ := .ok (wArray ⟨1, 2, 0, 10⟩)
  covariance _ _ := .ok (wArray ⟨1, 1, 0, 2, 10, 10⟩)

/-- The path of the settings file. -/
def wSettingsPath : Path := (false, [['s']])

/-- A disk with the settings file and nothing else. -/
def wDisk : Disk where
  dir q := q.2.isEmpty
  file q := if q = wSettingsPath then some [] else none
  may _ := true

/-- The program is called with the name of the settings file. -/
def wOpts : List Opt := [.s ['s']]

end Coffe
