import Verif.Model.Base
import Mathlib.Analysis.SpecialFunctions.Log.Basic

/-!
# `echidna/fit/test_statistic.py`

Arrays hold floats (real numbers here); arrays of integers, into which a clamped value would be
written truncated, are in `Model/Whole`.
-/

namespace Verif

open Real

/-- A numpy array of floats: its shape and its flat contents. -/
structure RArr where
  shape : List ℕ
  vals : List ℝ

/-- The contents fit the shape. -/
def RArr.WF (a : RArr) : Prop := a.vals.length = a.shape.prod

/-- The classes `BakerCousinsChi`, `BakerCousinsChiUp`, `BakerCousinsLL`, `Neyman`, `Pearson`,
`ExtendedLL`, `/repo/echidna/fit/test_statistic.py:126`, 229, 335, 427, 519, 614. -/
inductive Stat where
  | bcChi | bcChiUp | bcLL | neyman | pearson | extLL
  deriving DecidableEq

/-- `epsilon = 1e-34`, e.g. `/repo/echidna/fit/test_statistic.py:165`. -/
noncomputable def statEps : ℝ := 1 / 10 ^ 34

/-- `if x < epsilon: x = epsilon`. -/
noncomputable def clampEps (x : ℝ) : ℝ := if x < statEps then statEps else x

/-- The value of one bin in the three Baker-Cousins classes,
`/repo/echidna/fit/test_statistic.py:168-173` and likewise 199-204, 274-279, 305-310, 375-380,
401-406. -/
noncomputable def bakerCousinsBin (obs exp : ℝ) : ℝ :=
  let exp := clampEps exp
  if obs < statEps then exp else exp - obs + obs * log (obs / exp)

/-- One bin of `Neyman`, `/repo/echidna/fit/test_statistic.py:468-473`, 494-499. -/
noncomputable def neymanBin (obs exp : ℝ) : ℝ :=
  let obs := clampEps obs
  if exp < statEps then obs else (exp - obs) ^ 2 / obs

/-- One bin of `Pearson`, `/repo/echidna/fit/test_statistic.py:563-568`, 589-594. -/
noncomputable def pearsonBin (obs exp : ℝ) : ℝ :=
  let exp := clampEps exp
  if obs < statEps then exp else (obs - exp) ^ 2 / exp

/-- A value and the two arrays as they are afterwards. -/
structure StatOut (α : Type) where
  value : α
  observed : List ℝ
  expected : List ℝ

/-- `total = 0; for ...: total += value`. -/
noncomputable def loopTotal (f : ℝ → ℝ → ℝ) (obs exp : List ℝ) : ℝ :=
  (obs.zip exp).foldl (fun total b => total + f b.1 b.2) 0

/-- `_compute`, `/repo/echidna/fit/test_statistic.py:146-175`, 250-281, 355-383, 447-475,
539-570, 634-659. `BakerCousinsLL` and `Pearson` write the clamped expectation into the
caller's array, `Neyman` the clamped observation; the others work on copies or local
variables. -/
noncomputable def Stat.compute (st : Stat) (obs exp : List ℝ) : StatOut ℝ :=
  match st with
  | .bcChi => ⟨2 * loopTotal bakerCousinsBin obs exp, obs, exp⟩
  | .bcChiUp => ⟨2 * (obs.zip exp).foldl
      (fun total b => if b.2 < b.1 then total else total + bakerCousinsBin b.1 b.2) 0, obs, exp⟩
  | .bcLL => ⟨loopTotal bakerCousinsBin obs exp, obs, exp.map clampEps⟩
  | .neyman => ⟨loopTotal neymanBin obs exp, obs.map clampEps, exp⟩
  | .pearson => ⟨loopTotal pearsonBin obs exp, obs, exp.map clampEps⟩
  | .extLL => ⟨exp.sum - loopTotal (fun o e => o * log (clampEps e)) obs exp, obs, exp⟩

/-- `numpy.allclose(a, b)` for two numbers. -/
def allClose (a b : ℝ) : Prop := |a - b| ≤ 1 / 10 ^ 8 + 1 / 10 ^ 5 * |b|

open Classical in
/-- `_get_stats`, `/repo/echidna/fit/test_statistic.py:178-211`, 284-317, 386-409, 478-501,
573-596, 662-683. -/
noncomputable def Stat.getStats (st : Stat) (obs exp : List ℝ) :
    Except PyErr (StatOut (List ℝ)) :=
  match st with
  | .bcChi | .bcChiUp =>
    let stats := (List.zipWith bakerCousinsBin obs exp).map (2 * ·)
    if allClose stats.sum (st.compute obs exp).value then .ok ⟨stats, obs, exp⟩
    else .error .valueError
  | .bcLL => .ok ⟨List.zipWith bakerCousinsBin obs exp, obs, exp.map clampEps⟩
  | .neyman => .ok ⟨List.zipWith neymanBin obs exp, obs.map clampEps, exp⟩
  | .pearson => .ok ⟨List.zipWith pearsonBin obs exp, obs, exp.map clampEps⟩
  | .extLL => .ok ⟨List.zipWith (fun o e => clampEps e - o * log (clampEps e)) obs exp, obs, exp⟩

/-- What `compute_statistic` returns: one number or one per bin. -/
inductive StatValue where
  | total (v : ℝ)
  | bins (l : List ℝ)

/-- `TestStatistic.compute_statistic`, `/repo/echidna/fit/test_statistic.py:46-74`. -/
noncomputable def Stat.computeStatistic (st : Stat) (perBin : Bool) (obs exp : RArr) :
    Except PyErr (StatOut StatValue) :=
  if obs.shape.length ≠ 1 then .error .typeError
  else if exp.shape.length ≠ 1 then .error .typeError
  else if obs.vals.length ≠ exp.vals.length then .error .valueError
  else if perBin then
    match st.getStats obs.vals exp.vals with
    | .error e => .error e
    | .ok r => .ok ⟨.bins r.value, r.observed, r.expected⟩
  else
    let r := st.compute obs.vals exp.vals
    .ok ⟨.total r.value, r.observed, r.expected⟩

/-- `get_penalty_term`, `/repo/echidna/fit/test_statistic.py:214-226`, 320-332, 412-424, 504-516,
599-611, 686-698. A zero sigma divides by zero. -/
noncomputable def Stat.penalty (st : Stat) (value prior sigma : ℝ) : Except PyErr ℝ :=
  if sigma = 0 then .error .zeroDivision
  else match st with
    | .bcLL => .ok (0.5 * ((value - prior) / sigma) ^ 2)
    | _ => .ok (((value - prior) / sigma) ^ 2)

end Verif
