import Verif.Model.Smear

/-! Specification of spectra whose contents are multiplied by a number. -/

namespace Verif

/-- The contents multiplied by `k`, with `m` decays. -/
def Spectrum.times (k m : ℚ) (s : Spectrum) : Spectrum :=
  { s with data := s.data.smul k, numDecays := m }

/-- Interpolation of contents multiplied by a positive number is multiplied interpolation. -/
def SplineHom (spline : List ℚ → List ℚ → Except PyErr (ℚ → ℚ)) : Prop :=
  ∀ (k : ℚ), 0 < k → ∀ xs ys, spline xs (ys.map (· * k)) =
    (spline xs ys).map (fun g x => g x * k)

/-- Interpolation of added contents is added interpolation. -/
def SplineAdd (spline : List ℚ → List ℚ → Except PyErr (ℚ → ℚ)) : Prop :=
  ∀ xs ys zs f g, spline xs ys = .ok f → spline xs zs = .ok g →
    spline xs (List.zipWith (· + ·) ys zs) = .ok (fun x => f x + g x)

/-- The result scaled to `n` decays; contents that are not finite stay so. -/
def NpResult.scaled (n : ℚ) : NpResult → NpResult
  | .finite t => .finite (t.scale n).st
  | .notFinite => .notFinite

end Verif
