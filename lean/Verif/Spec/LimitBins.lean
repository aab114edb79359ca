import Verif.Spec.Limit

/-! # Specification of limits with statistics per bin -/

namespace Verif

/-- The fitter, asked for the signal scaled by each of `scales`, gives the `k` numbers `st x` and the
penalty terms `pens x`, and without signal the `k` numbers `m`; a scaling close to zero means no
signal. -/
structure BinFits (fit : Option ℝ → Except PyErr FitOut) (scales : List ℝ) (k : ℕ) (st : ℝ → List ℝ)
    (pens : ℝ → List ℝ) (m : List ℝ) : Prop where
  fits : ∀ x ∈ scales, (npCloseReal x 0 → fit none = .ok ⟨st x, pens x⟩) ∧
    (¬ npCloseReal x 0 → fit (some x) = .ok ⟨st x, pens x⟩)
  bins : ∀ x ∈ scales, (st x).length = k
  without : ∃ pens, fit none = .ok ⟨m, pens⟩
  size : m.length = k

/-- `v` is the number in bin `c` for the scaling number `i`, relative to the one without signal. -/
def EntryAt (scales : List ℝ) (st : ℝ → List ℝ) (m : List ℝ) (i c : ℕ) (v : ℝ) : Prop :=
  ∃ x a b, scales[i]? = some x ∧ (st x)[c]? = some a ∧ m[c]? = some b ∧ v = a - b

/-- The smallest number of all bins and scalings is in bin `c` for the scaling number `i`; of several
it is the one for the first scaling, and there the one in the first bin. -/
def LeastEntry (scales : List ℝ) (st : ℝ → List ℝ) (m : List ℝ) (i c : ℕ) : Prop :=
  ∃ v, EntryAt scales st m i c v ∧ ∀ i' c' v', EntryAt scales st m i' c' v' →
    v ≤ v' ∧ (i' < i ∨ i' = i ∧ c' < c → v < v')

/-- The statistic of a scaling: the sum over the bins, relative to the one without signal, and the
penalty terms. -/
def binTotal (st : ℝ → List ℝ) (pens : ℝ → List ℝ) (m : List ℝ) (x : ℝ) : ℝ :=
  (List.zipWith (fun a b => a - b) (st x) m).sum + (pens x).sum

end Verif
