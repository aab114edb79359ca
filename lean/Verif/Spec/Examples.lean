import Verif.Spec.Spectra

/-! Concrete spectra used by the `example`s that accompany the theorems. -/

namespace Verif.Ex

/-- ten bins of width one half, from 0 to 5 -/
def energy : SPar := ⟨lit "energy_mc", 0, 5, 10⟩
/-- four bins of width 1500 -/
def radial : SPar := ⟨lit "radial_mc", 0, 6000, 4⟩
/-- two bins of width 2, from 1 to 5: the lower edge is not a multiple of the width -/
def odd : SPar := ⟨lit "time_mc", 1, 5, 2⟩

/-- A two-dimensional spectrum with contents `index₀ + 2 · index₁ + 1`. -/
def spec : Spectrum where
  name := lit "Te130_0n2b"
  cfg := [energy, radial]
  data := ⟨[10, 4], fun idx => match idx with
    | [i, j] => i + 2 * j + 1
    | _ => 0⟩
  numDecays := 200
  rawEvents := 7
  rois := []

/-- A one-dimensional spectrum on an axis that is not aligned with zero. -/
def specOdd : Spectrum where
  name := lit "odd"
  cfg := [odd]
  data := ⟨[2], fun idx => match idx with
    | [0] => 3
    | [1] => 4
    | _ => 0⟩
  numDecays := 10
  rawEvents := 1
  rois := []

theorem energy_wf : energy.WF := by constructor <;> norm_num [energy]
theorem radial_wf : radial.WF := by constructor <;> norm_num [radial]
theorem odd_wf : odd.WF := by constructor <;> norm_num [odd]

theorem spec_wf : spec.WF where
  axes := by simpa [spec] using ⟨energy_wf, radial_wf⟩
  names := by decide
  shape := by decide

theorem specOdd_wf : specOdd.WF where
  axes := by simpa [specOdd] using odd_wf
  names := by decide
  shape := by decide

/-- A point inside `spec`. -/
def point : List (PyStr × ℚ) := [(lit "radial_mc", 3000), (lit "energy_mc", 5 / 4)]

theorem point_dict : IsDict point := by unfold IsDict; decide

theorem point_inRange : InRange spec point := by
  constructor
  · simp [spec, point, energy, radial]
  · intro p hp
    simp only [spec, List.mem_cons, List.not_mem_nil, or_false] at hp
    rcases hp with rfl | rfl
    · exact ⟨5 / 4, by simp [point, energy], by norm_num [energy], by norm_num [energy]⟩
    · exact ⟨3000, by simp [point, radial], by norm_num [radial], by norm_num [radial]⟩

end Verif.Ex
