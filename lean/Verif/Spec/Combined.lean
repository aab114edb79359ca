import Verif.Spec.Fixing
import Verif.Spec.Outside

/-! # Vocabulary of the properties about fixed backgrounds that are combined before a fit -/

namespace Verif

/-- What some fixed backgrounds with given numbers of decays contribute to a cell: the sum of their
contents, each scaled from the decays of the spectrum to the given number. -/
def fixedAt (st : FitState) (fixed : List (ℕ × ℚ)) (idx : List ℕ) : ℚ :=
  (fixed.map (fun e => e.2 / (st.view e.1).numDecays * (st.view e.1).data.get idx)).sum

/-- The arguments `b` are the arguments `a` with other fixed backgrounds, which have the same total in
the cells that are part of the region. `d` are the data. -/
structure FitArgs.SameTotal (a b : FitArgs) (d : ℕ) (st : FitState) : Prop where
  rest : b = { a with fixed := b.fixed }
  total : ∀ idx, InB (st.view d).data.shape idx → InRegion (inOrder a.roi) (st.view d).cfg idx →
    fixedAt st b.fixed idx = fixedAt st a.fixed idx

/-- `t` comes of scaling each of the spectra to the given number of decays and adding them up, without
an exception. -/
def Summed : List (Spectrum × ℚ) → Spectrum → Prop
  | [], _ => False
  | [e], t => (e.1.scale e.2).err = none ∧ t = (e.1.scale e.2).st
  | e :: l, t => ∃ u, Summed l u ∧ (e.1.scale e.2).err = none ∧ (u.add (e.1.scale e.2).st).err = none ∧
      t = (u.add (e.1.scale e.2).st).st

/-- The arguments `b` are the arguments `a` with the spectrum `q` as the only fixed background, which is
what comes of scaling the fixed backgrounds of `a` to the given numbers of decays and adding them up. It
is to have the sum of these numbers, which is not zero. -/
structure FitArgs.Combines (a b : FitArgs) (q d : ℕ) (st : FitState) : Prop where
  rest : b = { a with fixed := [(q, (a.fixed.map Prod.snd).sum)] }
  decays : (a.fixed.map Prod.snd).sum ≠ 0
  sum : ∃ t, Summed (a.fixed.map (fun e => (st.view e.1, e.2))) t ∧ (st.view q).numDecays = t.numDecays ∧
    ∀ idx, InB (st.view d).data.shape idx → (st.view q).data.get idx = t.data.get idx

end Verif
