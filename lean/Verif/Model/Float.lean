import Verif.Model.Spectra
import Mathlib.Data.Int.Log

/-!
# Spectra in floating point arithmetic

The other files compute with exact numbers. Here every operation on floats is followed by a
rounding, as in python and numpy: filling, the bins and edges of an axis, shrinking and scaling of
`/repo/echidna/core/spectra.py` and `/repo/echidna/core/parameter.py`. Simplification: no overflow,
no underflow, no nan.
-/

namespace Verif

/-- A rounding of exact numbers to floats: monotone, with relative error `u` at most, and exact
for floats and for integers up to `big`. -/
structure Rounding where
  rnd : ℚ → ℚ
  u : ℚ
  big : ℕ
  mono : Monotone rnd
  rel : ∀ x, |rnd x - x| ≤ u * |x|
  idem : ∀ x, rnd (rnd x) = rnd x
  int : ∀ n : ℤ, n.natAbs ≤ big → rnd n = n

/-- The float nearest to `x` with `p` binary digits; halves go to the even neighbour (IEEE 754,
`p = 53` for python's floats). -/
def roundBits (p : ℕ) (x : ℚ) : ℚ :=
  if x = 0 then 0
  else
    let ulp : ℚ := 2 ^ (Int.log 2 |x| - ((p : ℤ) - 1))
    npRint (x / ulp) * ulp

namespace Rounding

variable (R : Rounding)

/-- A number that is a float. -/
def Rep (x : ℚ) : Prop := R.rnd x = x

/-- `a - b` -/
def sub (a b : ℚ) : ℚ := R.rnd (a - b)

/-- `a + b` -/
def add (a b : ℚ) : ℚ := R.rnd (a + b)

/-- `a * b` -/
def mul (a b : ℚ) : ℚ := R.rnd (a * b)

/-- `a / b`, `b` not zero -/
def div (a b : ℚ) : ℚ := R.rnd (a / b)

/-! ### axes -/

/-- `Parameter.get_width`, `/repo/echidna/core/parameter.py:97-103`. -/
def width (p : SPar) : ℚ := R.div (R.sub p.high p.low) p.bins

/-- Bin number used by `fill`, `/repo/echidna/core/spectra.py:196-199`. -/
def fillBin (p : SPar) (x : ℚ) : ℤ :=
  pyInt (R.mul (R.div (R.sub x p.low) (R.sub p.high p.low)) p.bins)

/-- `SpectraParameter.get_bin`, `/repo/echidna/core/parameter.py:1055-1074`. -/
def getBin (p : SPar) (x : ℚ) : Except PyErr ℤ :=
  if x < p.low then .error .valueError
  else if p.high < x then .error .valueError
  else if p.bins = 0 ∨ R.width p = 0 then .error .zeroDivision
  else .ok (pyInt (R.div (R.sub x p.low) (R.width p)))

/-- `SpectraParameter.get_bin_centre`, `/repo/echidna/core/parameter.py:1084-1105`. -/
def getBinCentre (p : SPar) (bin : ℤ) : Except PyErr ℚ :=
  if bin < 0 then .error .valueError
  else if p.bins - 1 < bin then .error .valueError
  else .ok (R.add p.low (R.mul (R.add bin (1 / 2)) (R.width p)))

/-- `numpy.arange(start, stop, step)`: the number of entries is `ceil((stop - start) / step)`; the
second entry is `start + step`, further entries use the difference of the first two. -/
def arange (start stop step : ℚ) : List ℚ :=
  let delta := R.sub (R.add start step) start
  (List.range ⌈R.div (R.sub stop start) step⌉.toNat).map (fun i : ℕ =>
    if i = 0 then start else if i = 1 then R.add start step else R.add start (R.mul i delta))

/-- `SpectraParameter.get_bin_centres`, `/repo/echidna/core/parameter.py:1107-1115`. -/
def binCentres (p : SPar) : List ℚ :=
  R.arange (R.add p.low (R.mul (R.width p) (1 / 2))) p.high (R.width p)

/-- `SpectraParameter.get_bin_boundaries`, `/repo/echidna/core/parameter.py:1076-1082`:
`numpy.linspace(low, high, bins + 1)`, whose last entry is `high` itself. -/
def binBoundaries (p : SPar) : List ℚ :=
  (List.range (p.bins + 1).toNat).map (fun i : ℕ =>
    if (i : ℤ) = p.bins then p.high
    else R.add (R.mul i (R.div (R.sub p.high p.low) p.bins)) p.low)

/-- `SpectraParameter.round`, `/repo/echidna/core/parameter.py:1131-1140`. -/
def round (p : SPar) (x : ℚ) : ℚ := R.mul (pyRound (R.div x (R.width p))) (R.width p)

/-- Edge of a bin as computed in `Spectra.shrink`, e.g. `/repo/echidna/core/spectra.py:494`. -/
def edge (p : SPar) (k : ℤ) : ℚ := R.add p.low (R.mul k (R.width p))

/-- New edges and slice bounds of one axis in `Spectra.shrink`, `/repo/echidna/core/spectra.py:487-528`;
`c` is the float `0.99`. -/
def shrinkAxis (c : ℚ) (p : SPar) (kl kh : ℚ) : SPar × (ℤ × ℤ) :=
  let w := R.width p
  let lowBin := pyInt (R.div (R.sub kl p.low) w)
  let highBin := ⌈R.div (R.sub kh p.low) w⌉
  let newLow := R.round p (R.edge p lowBin)
  let newHigh := R.round p (R.edge p highBin)
  let hi : ℤ × ℚ :=
    if R.mul c w < |R.sub newHigh kh| then
      if 0 < R.sub newHigh kh then (highBin - 1, R.round p (R.edge p (highBin - 1)))
      else (highBin + 1, R.round p (R.edge p (highBin + 1)))
    else (highBin, newHigh)
  let lo : ℤ × ℚ :=
    if R.mul c w < |R.sub newLow kl| then
      if 0 < R.sub newLow kl then (lowBin - 1, R.edge p (lowBin - 1))
      else (lowBin + 1, R.edge p (lowBin + 1))
    else (lowBin, newLow)
  ({ p with low := lo.2, high := hi.2, bins := hi.1 - lo.1 }, (lo.1, hi.1))

/-! ### spectra -/

/-- `Spectra.fill`, `/repo/echidna/core/spectra.py:168-200`; cf. `Spectrum.fill`. -/
def fill (s : Spectrum) (weight : ℚ) (kw : List (PyStr × ℚ)) : Outcome :=
  if kw.any (fun e => e.1 ∉ s.pars) then .fail s .exception
  else
    match s.cfg.mapM (fun p => assoc kw p.name) with
    | none => .fail s .exception
    | some xs =>
      if (s.cfg.zip xs).all (fun e => e.1.low ≤ e.2 ∧ e.2 < e.1.high) then
        let bins := List.zipWith R.fillBin s.cfg xs
        let idx := bins.map Int.toNat
        if bins.all (fun b => 0 ≤ b) ∧ InB s.data.shape idx then
          .ok { s with data := ⟨s.data.shape,
            fun i => if i = idx then R.add (s.data.get i) weight else s.data.get i⟩ }
        else .fail s .indexError
      else .fail s .valueError

/-- An order in which `numpy.sum` may add up numbers (it adds pairwise, in blocks). -/
inductive _root_.Verif.SumTree where
  | zero
  | leaf (x : ℚ)
  | node (l r : SumTree)

/-- The sum as computed in the order of the tree: `Spectra.sum`, `/repo/echidna/core/spectra.py:565-571`,
for the numbers at the leaves. -/
def sumTree : SumTree → ℚ
  | .zero => 0
  | .leaf x => x
  | .node l r => R.rnd (sumTree l + sumTree r)

/-- One round of the main loop of `Spectra.shrink`, `/repo/echidna/core/spectra.py:479-528`. -/
def shrinkPar (c : ℚ) (kw : List (PyStr × ℚ)) (p : SPar) : Except PyErr (SPar × (ℤ × ℤ)) :=
  let kl := (assoc kw (p.name ++ lit "_low")).getD p.low
  let kh := (assoc kw (p.name ++ lit "_high")).getD p.high
  if p.bins = 0 ∨ R.width p = 0 then .error .zeroDivision
  else .ok (R.shrinkAxis c p kl kh)

/-- Main loop of `Spectra.shrink`, `/repo/echidna/core/spectra.py:479-528`. -/
def shrinkLoop (c : ℚ) (kw : List (PyStr × ℚ)) :
    List SPar → List SPar × List (ℤ × ℤ) × Option PyErr
  | [] => ([], [], none)
  | p :: ps =>
    match R.shrinkPar c kw p with
    | .error e => (p :: ps, [], some e)
    | .ok (p', b) =>
      let r := shrinkLoop c kw ps
      (p' :: r.1, b :: r.2.1, r.2.2)

/-- `Spectra.shrink`, `/repo/echidna/core/spectra.py:425-536`. The checks of the bounds
(`numpy.allclose`) are taken as exact. -/
def shrink (c : ℚ) (s : Spectrum) (kw : List (PyStr × ℚ)) : Outcome :=
  match kw.forM s.shrinkCheck with
  | .error e => .fail s e
  | .ok _ =>
    let r := R.shrinkLoop c kw s.cfg
    match r.2.2 with
    | some e => .fail { s with cfg := r.1 } e
    | none => .ok { s with cfg := r.1, data := s.data.slice r.2.1 }

/-- `Spectra.scale`, `/repo/echidna/core/spectra.py:378-392`. -/
def scale (s : Spectrum) (n : ℚ) : Outcome :=
  if s.numDecays = 0 then .fail s .zeroDivision
  else .ok { s with
    data := ⟨s.data.shape, fun i => R.mul (s.data.get i) (R.div n s.numDecays)⟩
    numDecays := n }

end Rounding

end Verif
