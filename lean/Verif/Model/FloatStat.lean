import Verif.Model.Float
import Verif.Model.TestStatistic

/-!
# Test statistics in floating point arithmetic

`/repo/echidna/fit/test_statistic.py` with a rounding after every operation; cf.
`Model/TestStatistic`. `lg` is `numpy.log` for floats and `tot` the order in which `numpy.sum` adds
up. Simplifications: arrays are one-dimensional, what happens to the caller's arrays is left out, and
`x**2` is the rounded product of `x` with itself.
-/

namespace Verif

namespace Rounding

variable (R : Rounding)

/-- The float `1e-34`, e.g. `/repo/echidna/fit/test_statistic.py:165`. -/
def eps : ℚ := R.rnd (1 / 10 ^ 34)

/-- `if x < epsilon: x = epsilon`. -/
def clamp (x : ℚ) : ℚ := if x < R.eps then R.eps else x

/-- One bin of the three Baker-Cousins classes, `/repo/echidna/fit/test_statistic.py:168-173` and
likewise 199-204, 274-279, 305-310, 375-380, 401-406. -/
def bakerCousinsBin (lg : ℚ → ℚ) (obs exp : ℚ) : ℚ :=
  let exp := R.clamp exp
  if obs < R.eps then exp else R.add (R.sub exp obs) (R.mul obs (lg (R.div obs exp)))

/-- One bin of `Neyman`, `/repo/echidna/fit/test_statistic.py:468-473`, 494-499. -/
def neymanBin (obs exp : ℚ) : ℚ :=
  let obs := R.clamp obs
  if exp < R.eps then obs else R.div (R.mul (R.sub exp obs) (R.sub exp obs)) obs

/-- One bin of `Pearson`, `/repo/echidna/fit/test_statistic.py:563-568`, 589-594. -/
def pearsonBin (obs exp : ℚ) : ℚ :=
  let exp := R.clamp exp
  if obs < R.eps then exp else R.div (R.mul (R.sub obs exp) (R.sub obs exp)) exp

/-- `total = 0; for ...: total += value`. -/
def loopTotal (f : ℚ → ℚ → ℚ) (obs exp : List ℚ) : ℚ :=
  (obs.zip exp).foldl (fun total b => R.add total (f b.1 b.2)) 0

/-- `_compute`, `/repo/echidna/fit/test_statistic.py:146-175`, 250-281, 355-383, 447-475, 539-570,
634-659. -/
def computeStat (lg : ℚ → ℚ) (tot : List ℚ → ℚ) (st : Stat) (obs exp : List ℚ) : ℚ :=
  match st with
  | .bcChi => R.mul 2 (R.loopTotal (R.bakerCousinsBin lg) obs exp)
  | .bcChiUp => R.mul 2 ((obs.zip exp).foldl
      (fun total b => if b.2 < b.1 then total else R.add total (R.bakerCousinsBin lg b.1 b.2)) 0)
  | .bcLL => R.loopTotal (R.bakerCousinsBin lg) obs exp
  | .neyman => R.loopTotal R.neymanBin obs exp
  | .pearson => R.loopTotal R.pearsonBin obs exp
  | .extLL => R.sub (tot exp) (R.loopTotal (fun o e => R.mul o (lg (R.clamp e))) obs exp)

/-- `numpy.allclose(a, b)` for two floats. -/
def allClose (a b : ℚ) : Prop :=
  |R.sub a b| ≤ R.add (R.rnd (1 / 10 ^ 8)) (R.mul (R.rnd (1 / 10 ^ 5)) |b|)

instance (a b : ℚ) : Decidable (R.allClose a b) := inferInstanceAs (Decidable (_ ≤ _))

/-- `_get_stats`, `/repo/echidna/fit/test_statistic.py:178-211`, 284-317, 386-409, 478-501, 573-596,
662-683. -/
def statBins (lg : ℚ → ℚ) (tot : List ℚ → ℚ) (st : Stat) (obs exp : List ℚ) :
    Except PyErr (List ℚ) :=
  match st with
  | .bcChi | .bcChiUp =>
    let stats := (List.zipWith (R.bakerCousinsBin lg) obs exp).map (R.mul 2)
    if R.allClose (tot stats) (R.computeStat lg tot st obs exp) then .ok stats
    else .error .valueError
  | .bcLL => .ok (List.zipWith (R.bakerCousinsBin lg) obs exp)
  | .neyman => .ok (List.zipWith R.neymanBin obs exp)
  | .pearson => .ok (List.zipWith R.pearsonBin obs exp)
  | .extLL => .ok (List.zipWith (fun o e => R.sub (R.clamp e) (R.mul o (lg (R.clamp e)))) obs exp)

/-- `TestStatistic.compute_statistic`, `/repo/echidna/fit/test_statistic.py:46-74`: one number or
one per bin. -/
def computeStatistic (lg : ℚ → ℚ) (tot : List ℚ → ℚ) (st : Stat) (perBin : Bool)
    (obs exp : List ℚ) : Except PyErr (ℚ ⊕ List ℚ) :=
  if obs.length ≠ exp.length then .error .valueError
  else if perBin then (R.statBins lg tot st obs exp).map .inr
  else .ok (.inl (R.computeStat lg tot st obs exp))

/-- `get_penalty_term`, `/repo/echidna/fit/test_statistic.py:214-226`, 320-332, 412-424, 504-516,
599-611, 686-698. -/
def penalty (st : Stat) (value prior sigma : ℚ) : Except PyErr ℚ :=
  if sigma = 0 then .error .zeroDivision
  else
    let q := R.div (R.sub value prior) sigma
    match st with
    | .bcLL => .ok (R.mul (1 / 2) (R.mul q q))
    | _ => .ok (R.mul q q)

end Rounding

end Verif
