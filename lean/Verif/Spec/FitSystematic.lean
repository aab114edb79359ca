import Verif.Spec.LimitWhole

/-! Specification for C156: fits with systematic (global) parameters beside the rates. -/

namespace Verif

/-- `c` are the contents of the region of the spectrum `s` when the parameters `ps` are applied, one
after the other, with the values in `vals`: the spectrum is shrunk to the region, then the parameters
are applied, then it is projected onto the parameters `ns`. (`t.data.norm = t.data` fixes what the array of the
shrunk spectrum holds outside of its shape, which no result depends on.) -/
def SystematicContents (env : FitEnv) (st : FitState) (roi : Dict (ℚ × ℚ)) (ns : List PyStr)
    (ps : List ℕ) (vals : List (ℕ × ℚ)) (s : Spectrum) (c : NdArray ℚ) : Prop :=
  ∃ t u, ShrunkTo roi s t ∧ t.data.norm = t.data ∧ Convolved env st vals ps t u ∧
    IsProjection u ns c

/-- `c` are the contents of the region of the signal `s` when of the parameters `ps` the last is
applied, with its value in `vals`: the spectrum is shrunk to the region, then the parameter is applied,
then it is projected onto the parameters `ns`. (`t.data.norm = t.data` fixes what the array of the
shrunk spectrum holds outside of its shape, which no result depends on.) -/
def LastContents (env : FitEnv) (st : FitState) (roi : Dict (ℚ × ℚ)) (ns : List PyStr)
    (ps : List ℕ) (vals : List (ℕ × ℚ)) (s : Spectrum) (c : NdArray ℚ) : Prop :=
  ∃ t u, ShrunkTo roi s t ∧ t.data.norm = t.data ∧ LastConvolved env st vals ps t u ∧
    IsProjection u ns c

/-- The parameters are global ones of the fit configuration and then rates, one for each floating
background; the statistic is one number for all bins; no sigma is zero. -/
structure FitArgs.Systematic (a : FitArgs) (st : FitState) : Prop where
  floating : a.floating ≠ []
  global : ∀ e ∈ a.config, e.2.2 = true
  one : ∀ r ∈ a.floating, ∃ p, (st.objs r).fit = some [p]
  sigmas : ∀ p ∈ a.parameters st, (st.params p).sigma ≠ some 0
  statPerBin : a.statPerBin = false
  perBin : a.perBin = false

/-- A grid search over `k` parameters of any kind and then `n` rates: the values `vss`, as many as
bins, without repetitions; no rate is zero. -/
structure SystematicSearch (rnd : ℝ → ℚ) (g : GridSearch) (vss : List (List ℝ)) (k n : ℕ) : Prop where
  ready : g.Ready
  form : g.perBin = false
  values : HasValues g.pars vss
  counts : List.Forall₂ (fun (p : FitPar) (vs : List ℝ) => vs.length = p.bins ∧ vs ≠ []) g.pars vss
  number : vss.length = k + n
  nodup : ∀ vs ∈ vss, vs.Nodup
  nonzero : ∀ vs ∈ vss.drop k, ∀ x ∈ vs, rnd x ≠ 0
  sigmas : ∀ p ∈ g.pars, p.sigma ≠ some 0

/-- The expected contents: the fixed backgrounds with contents `c`, scaled to their priors, the
floating ones with contents `x`, scaled to the `rates`, and the signal with contents `x`. -/
def FitArgs.systematicAt (a : FitArgs) (st : FitState) (c x : ℕ → NdArray ℚ) (shape : List ℕ)
    (rates : List ℚ) : NdArray ℚ := ⟨shape, fun idx =>
  (a.fixed.map (fun e => e.2 / (st.view e.1).numDecays * (c e.1).get idx)).sum +
  (List.zipWith (fun r v => v / (st.view r).numDecays * (x r).get idx) a.floating rates).sum +
  (a.signal.toList.map (fun r => (x r).get idx)).sum⟩

end Verif
