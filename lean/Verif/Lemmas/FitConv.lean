import Verif.Lemmas.Fit
import Verif.Lemmas.Add

/-! Helper lemmas about what convolutions keep. -/

namespace Verif

open Spectrum

/-! ### what a convolution keeps -/

/-- Same axes, same shape, same number of decays. -/
structure Alike (s t : Spectrum) : Prop where
  cfg : t.cfg = s.cfg
  numDecays : t.numDecays = s.numDecays
  shape : t.data.shape = s.data.shape

theorem Alike.refl (s : Spectrum) : Alike s s := ⟨rfl, rfl, rfl⟩

theorem Alike.trans {s t u : Spectrum} (h : Alike s t) (h' : Alike t u) : Alike s u :=
  ⟨h'.cfg.trans h.cfg, h'.numDecays.trans h.numDecays, h'.shape.trans h.shape⟩

theorem fill_alike (s : Spectrum) (w : ℚ) (kw : List (PyStr × ℚ)) : Alike s (s.fill w kw).st := by
  unfold Spectrum.fill
  split
  · exact .refl _
  · split
    · exact .refl _
    · simp only
      split
      · split
        · exact ⟨rfl, rfl, rfl⟩
        · exact .refl _
      · exact .refl _

theorem fillOrRaise_alike {s t : Spectrum} {w : ℚ} {kw : List (PyStr × ℚ)}
    (h : fillOrRaise s w kw = .ok t) : Alike s t := by
  unfold fillOrRaise at h
  split at h
  · cases h
  · rw [← Except.ok.inj h]; exact fill_alike _ _ _

theorem smearCell_alike {sigma : ℚ → ℚ} {weight : ℚ → ℚ → ℚ → ℚ} {ns : ℚ} {s : Spectrum} {k : ℕ}
    {p : SPar} {acc t : Spectrum} {idx : List ℕ}
    (h : smearCell sigma weight ns s k p acc idx = .ok t) : Alike acc t := by
  unfold smearCell at h
  simp only at h
  split at h
  · rw [← Except.ok.inj h]; exact .refl _
  · split at h
    · cases h
    · exact foldlM_invariant (P := fun x => Alike acc x)
        (fun a b c h1 h2 => h1.trans (fillOrRaise_alike h2)) (.refl _) h

theorem weightedSmear_alike {suffix : PyStr} {sigma : ℚ → ℚ} {weight : ℚ → ℚ → ℚ → ℚ} {ns : ℚ}
    {s t : Spectrum} {par : PyStr} (h : s.weightedSmear suffix sigma weight ns par = .ok t) :
    Alike s t := by
  unfold Spectrum.weightedSmear at h
  simp only [bind, Except.bind, throw, throwThe, MonadExceptOf.throw] at h
  split at h
  · cases h
  · split at h
    · cases h
    · split at h
      · cases h
      · split at h
        · cases h
        · refine foldlM_invariant (P := fun x => Alike s x)
            (fun a b c h1 h2 => h1.trans (smearCell_alike h2)) ?_ h
          exact ⟨rfl, rfl, rfl⟩

theorem binLoop_shape {n k : ℕ} {contrib : ℕ → Except PyErr (Option (List ℕ → ℚ))}
    {sh : List ℕ} {d : NdArray ℚ} (h : binLoop n k contrib (.zeros sh) = .ok d) : d.shape = sh := by
  unfold binLoop at h
  refine foldlM_invariant (P := fun x => x.shape = sh) ?_ rfl h
  intro a b c h1 h2
  split at h2
  · cases h2
  · rw [← Except.ok.inj h2]; exact h1
  · rw [← Except.ok.inj h2]; exact h1

theorem shiftByBin_alike {str : ℚ → PyStr} {s t : Spectrum} {dim : PyStr} {v : ℚ}
    (h : s.shiftByBin str dim v = .ok t) : Alike s t := by
  unfold Spectrum.shiftByBin at h
  simp only [bind, Except.bind, throw, throwThe, MonadExceptOf.throw, pure, Except.pure] at h
  split at h
  · cases h
  · split at h
    · cases h
    · split at h
      · cases h
      · split at h
        · cases h
        · split at h
          · cases h
          · rename_i hb
            rw [← Except.ok.inj h]
            exact ⟨rfl, rfl, binLoop_shape hb⟩

theorem renormalise_alike {s t : Spectrum} {name : PyStr} {d : NdArray ℚ}
    (hd : d.shape = s.data.shape) (h : (renormalise s name d).orRaise = .ok t) : Alike s t := by
  unfold renormalise at h
  split at h
  · cases h
  · simp only [NpResult.orRaise] at h
    rw [← Except.ok.inj h]
    exact ⟨rfl, rfl, hd⟩

theorem convolve_alike {env : FitEnv} {kind : ParKind} {dim : Option PyStr} {v : ℚ}
    {s t : Spectrum} (h : convolve env kind dim v s = .ok t) : Alike s t := by
  unfold convolve at h
  split at h
  · cases h
  · cases h
  · exact weightedSmear_alike h
  · split at h <;> cases h
  · split at h
    · cases h
    · simp only [bind, Except.bind] at h
      split at h
      · cases h
      · rename_i r hr
        unfold Spectrum.scaleAxis at hr
        simp only [bind, Except.bind, throw, throwThe, MonadExceptOf.throw, pure, Except.pure] at hr
        split at hr
        · cases hr
        · split at hr
          · cases hr
          · split at hr
            · cases hr
            · split at hr
              · cases hr
              · split at hr
                · cases hr
                · rename_i hb
                  rw [← Except.ok.inj hr] at h
                  exact renormalise_alike (binLoop_shape hb) h
  · cases h
  · simp only [bind, Except.bind] at h
    split at h
    · cases h
    · rename_i r hr
      unfold Spectrum.shift at hr
      simp only [bind, Except.bind, throw, throwThe, MonadExceptOf.throw, pure, Except.pure] at hr
      split at hr
      · cases hr
      · split at hr
        · cases hr
        · split at hr
          · split at hr
            · cases hr
            · rename_i hb
              rw [← Except.ok.inj hr] at h
              simp only [NpResult.orRaise] at h
              rw [← Except.ok.inj h]
              exact shiftByBin_alike hb
          · split at hr
            · cases hr
            · split at hr
              · cases hr
              · split at hr
                · cases hr
                · rename_i hb
                  rw [← Except.ok.inj hr] at h
                  exact renormalise_alike (binLoop_shape hb) h

end Verif
