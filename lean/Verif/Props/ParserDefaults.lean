import Verif.Props.Parser
import Verif.Proofs.ParserDefaults

/-!
# C75, C39: what a settings file may leave out
-/

namespace Coffe
open Classical

variable {E : ParserEnv} {R : ClassRun} {c : Conf} {p : CPar}

/-- **C75**: a setting that may be missing and is missing is for the program what it is for a new Python object. -/
theorem C75_defaults (h : coffe_parser_init E R c = .ok p) : Defaulted E c p := (parser_defaulted h).1

/-- For covariances of redshift averaged multipoles the separations are always those of a new Python object: 100 from 5 to 302. -/
theorem C39_separations_fixed (h : coffe_parser_init E R c = .ok p) (ht : p.output_type = COVARIANCE_AVERAGE_MULTIPOLES) :
    p.sep = (List.range 100).map fun i : ℕ => (5 : ℝ) + 3 * i := by
  rw [(parser_defaulted h).2 ht]
  simp only [PyPar.default, generateRange]
  refine List.map_congr_left fun i _ => ?_
  norm_num
  ring

/-- The settings of the witness for output type 5. -/
def wAverage : List (String × Setting) :=
  [("separations_sampling", wIntOne 5), ("density1", wIntList [1]), ("density2", wIntList [1]), ("fsky", wIntList [1]),
    ("zmin", wIntList [1]), ("zmax", wIntList [2]), ("multipoles", wIntList [0])]

theorem wAverage_accepted : ∃ p, coffe_parser_init wEnv wRun (wConf 5 wAverage) = .ok p := by
  refine C39_accepts (wConf_complete_of rfl rfl ⟨by decide, by simp only [wEnv]; norm_num⟩ 5 wAverage (by simp [wAverage])
    (fun e => by omega) (fun e => by omega) ⟨0, 0, 0, rfl, rfl, rfl, by decide⟩ (fun e => by omega)
    (fun _ => ⟨[1], [1], [1], [1], [2], ⟨_, rfl, by simp [Scalar.toFloat]⟩, ⟨_, rfl, by simp [Scalar.toFloat]⟩,
      ⟨_, rfl, by simp [Scalar.toFloat]⟩, ⟨_, rfl, by simp [Scalar.toFloat]⟩, ⟨_, rfl, by simp [Scalar.toFloat]⟩, rfl, rfl, rfl, rfl⟩)
    ⟨"./".toList, rfl, by decide⟩ ⟨["z".toList], rfl⟩)

/-- **C39 fails**: a file for the covariance of redshift averaged multipoles that asks for five separations from 10 to 20 is
accepted, and the calculation has 100 separations, the first of which is 5. -/
theorem C39_separations_false : ∃ c p, coffe_parser_init wEnv wRun c = .ok p ∧ p.output_type = COVARIANCE_AVERAGE_MULTIPOLES ∧
    lookup_float c "separations_min" = some 10 ∧ lookup_float c "separations_max" = some 20 ∧
    lookup_int c "separations_sampling" = some 5 ∧ p.sep.length = 100 ∧ p.sep.head? = some 5 := by
  obtain ⟨p, hp⟩ := wAverage_accepted
  have ht : p.output_type = COVARIANCE_AVERAGE_MULTIPOLES := (Option.some.inj (C39_faithful hp).output_type).symm
  have hs := C39_separations_fixed hp ht
  refine ⟨_, p, hp, ht, ?_, ?_, rfl, ?_, ?_⟩
  · show some (((10 : ℤ) : ℝ)) = _
    norm_num
  · show some (((20 : ℤ) : ℝ)) = _
    norm_num
  · rw [hs]; simp
  · rw [hs, show (100 : ℕ) = 99 + 1 from rfl, List.range_succ_eq_map]
    simp

/-- Non-vacuity of `C75_defaults`: the witness leaves out the pixel size, which is 10. -/
example : ∃ p, coffe_parser_init wEnv wRun (wConf 5 wAverage) = .ok p ∧ p.pixelsize = [10] ∧ p.covariance_integration_bins = 8000 := by
  obtain ⟨p, hp⟩ := wAverage_accepted
  have F := C39_faithful hp
  have ht : p.output_type = COVARIANCE_AVERAGE_MULTIPOLES := (Option.some.inj F.output_type).symm
  have hm : p.covariance_integration_method = 1 := (Option.some.inj F.covariance_integration_method).symm
  exact ⟨p, hp, (C75_defaults hp).pixelsize (.inr ht) rfl, (C75_defaults hp).covariance_integration_bins (by rw [hm]; decide)⟩

end Coffe
