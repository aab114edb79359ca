import Verif.Props.Plot

/-! # C102: several spectra in one plot -/

namespace Verif

theorem bcastAdd_one {a b : NdArray ℚ} {n : ℕ} (ha : a.shape = [n]) (hb : b.shape = [n]) :
    ∃ c, a.bcastAdd b = .ok c ∧ c.shape = [n] ∧
      ∀ i < n, c.get [i] = a.get [i] + b.get [i] := by
  have hbc : bcast [n] [n] = some [n] := by simp [bcast, bcastRev]
  refine ⟨⟨[n], _⟩, by unfold NdArray.bcastAdd; rw [ha, hb, hbc], rfl, fun i hi => ?_⟩
  have hidx : bcastIdx [n] [i] = [i] := by
    simp only [bcastIdx, List.length_cons, List.length_nil, Nat.sub_self, List.drop_zero,
      List.zipWith_cons_cons, List.zipWith_nil_left]
    split
    · next h => subst h; congr 1; omega
    · rfl
  dsimp only
  rw [hidx]

theorem ravel_one {a : NdArray ℚ} {n : ℕ} (ha : a.shape = [n]) {f : ℕ → ℚ}
    (h : ∀ i < n, a.get [i] = f i) : a.ravel = (List.range n).map f := by
  unfold NdArray.ravel
  rw [ha, allIdx_one, List.map_map]
  exact List.map_congr_left fun i hi => h i (List.mem_range.1 hi)

/-- The contents of the entry in bin `i` of the dimension. -/
def PlotEntry.contents (e : PlotEntry) (d : PyStr) (i : ℕ) : ℚ := contentsAt e.spectrum [(d, i)]

theorem plotEntry_ok {p : SPar} (e : PlotEntry) (hs : e.spectrum.WF) (hp : p ∈ e.spectrum.cfg)
    {hists : List StepHist} {bg tot : NdArray ℚ} (hb : bg.shape = [p.bins.toNat])
    (ht : tot.shape = [p.bins.toNat]) :
    ∃ h bg' tot', plotEntry p.name ((List.range p.bins.toNat).map p.centre)
        ((List.range (p.bins.toNat + 1)).map (fun i : ℕ => p.edge i)) (hists, bg, tot) e =
        .ok (hists ++ [h], bg', tot') ∧ h.Shows p (e.contents p.name) ∧
      bg'.shape = [p.bins.toNat] ∧ tot'.shape = [p.bins.toNat] ∧
      ∀ i < p.bins.toNat,
        bg'.get [i] = bg.get [i] + (if e.isBackground then e.contents p.name i else 0) ∧
        tot'.get [i] = tot.get [i] + e.contents p.name i := by
  obtain ⟨b, hproj, hshape, -, hravel, hget⟩ := project_ravel hs hp
  obtain ⟨tot', h1, h2, h3⟩ := bcastAdd_one ht hshape
  have hh := mplHist_centres (hs.axes p hp) (fun i => contentsAt e.spectrum [(p.name, i)])
  by_cases hbk : e.isBackground
  · obtain ⟨bg', g1, g2, g3⟩ := bcastAdd_one hb hshape
    refine ⟨⟨_, _⟩, bg', tot', ?_, ⟨rfl, rfl⟩, g2, h2, fun i hi => ?_⟩
    · unfold plotEntry
      rw [hproj]
      simp only [bind, Except.bind, hravel, hh, hbk, if_true, g1, h1]
      rfl
    · rw [if_pos hbk, g3 i hi, h3 i hi, hget i hi]
      exact ⟨rfl, rfl⟩
  · refine ⟨⟨_, _⟩, bg, tot', ?_, ⟨rfl, rfl⟩, hb, h2, fun i hi => ?_⟩
    · unfold plotEntry
      rw [hproj]
      simp only [bind, Except.bind, hravel, hh, hbk, h1]
      rfl
    · rw [if_neg hbk, h3 i hi, hget i hi]
      exact ⟨(add_zero _).symm, rfl⟩

theorem plotLoop_ok {p : SPar} (entries : List PlotEntry)
    (he : ∀ e ∈ entries, e.spectrum.WF ∧ p ∈ e.spectrum.cfg)
    {hists : List StepHist} {bg tot : NdArray ℚ} (hb : bg.shape = [p.bins.toNat])
    (ht : tot.shape = [p.bins.toNat]) :
    ∃ hs bg' tot', entries.foldlM (plotEntry p.name ((List.range p.bins.toNat).map p.centre)
        ((List.range (p.bins.toNat + 1)).map (fun i : ℕ => p.edge i))) (hists, bg, tot) =
        .ok (hists ++ hs, bg', tot') ∧
      List.Forall₂ (fun (h : StepHist) e => h.Shows p (e.contents p.name)) hs entries ∧
      bg'.shape = [p.bins.toNat] ∧ tot'.shape = [p.bins.toNat] ∧
      ∀ i < p.bins.toNat,
        bg'.get [i] = bg.get [i] +
          ((entries.filter PlotEntry.isBackground).map (fun e => e.contents p.name i)).sum ∧
        tot'.get [i] = tot.get [i] + (entries.map (fun e => e.contents p.name i)).sum := by
  induction entries generalizing hists bg tot with
  | nil => exact ⟨[], bg, tot, by simp; rfl, .nil, hb, ht, fun i _ => by simp⟩
  | cons e entries ih =>
    obtain ⟨h, bg1, tot1, q1, q2, q3, q4, q5⟩ := plotEntry_ok (hists := hists) e (he e (by simp)).1
      (he e (by simp)).2 hb ht
    obtain ⟨hs, bg2, tot2, r1, r2, r3, r4, r5⟩ := ih (fun e' he' => he e' (by simp [he']))
      (hists := hists ++ [h]) q3 q4
    refine ⟨h :: hs, bg2, tot2, ?_, .cons q2 r2, r3, r4, fun i hi => ?_⟩
    · rw [List.foldlM_cons, q1]
      simp only [bind, Except.bind]
      rw [r1]
      simp
    · obtain ⟨a1, a2⟩ := q5 i hi
      obtain ⟨b1, b2⟩ := r5 i hi
      constructor
      · rw [b1, a1]
        by_cases hbk : e.isBackground
        · simp [hbk, add_assoc]
        · simp [hbk]
      · rw [b2, a2]
        simp [add_assoc]

theorem plotCheck_ok {p : SPar} {entries : List PlotEntry}
    (he : ∀ e ∈ entries, e.spectrum.WF ∧ p ∈ e.spectrum.cfg) :
    entries.forM (plotCheck p.name p) = .ok () := by
  induction entries with
  | nil => rfl
  | cons e entries ih =>
    obtain ⟨h1, h2⟩ := he e (by simp)
    have : plotCheck p.name p e = .ok () := by
      unfold plotCheck
      rw [getPar_of_mem h1 h2]
      simp only [bind, Except.bind, ne_eq, not_true_eq_false, if_false]
      rfl
    change (plotCheck p.name p e >>= fun _ => entries.forM (plotCheck p.name p)) = _
    rw [this]
    exact ih fun e' he' => he e' (by simp [he'])

theorem spectralPlot_run {p : SPar} (entries : List PlotEntry) (hne : entries ≠ [])
    (he : ∀ e ∈ entries, e.spectrum.WF ∧ p ∈ e.spectrum.cfg) (limit : Option Spectrum)
    (q : SPar) (hq : q.bins = p.bins) (hqn : q.name = p.name)
    (hl : ∀ l, limit = some l → l.WF ∧ q ∈ l.cfg) :
    ∃ plot, spectralPlot entries p.name limit = .ok plot ∧
      List.Forall₂ (fun (h : StepHist) e => h.Shows p (e.contents p.name)) plot.each entries ∧
      plot.background.Shows p (fun i =>
        ((entries.filter PlotEntry.isBackground).map (fun e => e.contents p.name i)).sum) ∧
      plot.total.Shows p (fun i => (entries.map (fun e => e.contents p.name i)).sum) ∧
      (limit = none → plot.limit = none) ∧
      ∀ l, limit = some l → ∃ h, plot.limit = some h ∧
        h.Shows p (fun i => contentsAt l [(q.name, i)]) := by
  obtain ⟨first, rest, rfl⟩ := List.exists_cons_of_ne_nil hne
  obtain ⟨f1, f2⟩ := he first (by simp)
  have hlast : ∃ last, (first :: rest).getLast? = some last ∧ last ∈ first :: rest :=
    ⟨(first :: rest).getLast (by simp), List.getLast?_eq_some_getLast (by simp),
      List.getLast_mem _⟩
  obtain ⟨last, hlast, hmem⟩ := hlast
  obtain ⟨l1, l2⟩ := he last hmem
  have hw := f1.axes p f2
  obtain ⟨hs, bg, tot, r1, r2, r3, r4, r5⟩ := plotLoop_ok (first :: rest) he (hists := [])
    (bg := .zeros [p.bins.toNat]) (tot := .zeros [p.bins.toNat]) rfl rfl
  have hbg := mplHist_centres hw (fun i =>
    (((first :: rest).filter PlotEntry.isBackground).map (fun e => e.contents p.name i)).sum)
  have htot := mplHist_centres hw (fun i =>
    ((first :: rest).map (fun e => e.contents p.name i)).sum)
  have ebg := ravel_one r3 (fun i hi => (r5 i hi).1.trans (zero_add _))
  have etot := ravel_one r4 (fun i hi => (r5 i hi).2.trans (zero_add _))
  have hchk := plotCheck_ok (p := p) (entries := rest) fun e h => he e (by simp [h])
  cases hlim : limit with
  | none =>
    refine ⟨⟨hs, ⟨_, _⟩, ⟨_, _⟩, none⟩, ?_, r2, ⟨rfl, rfl⟩, ⟨rfl, rfl⟩, fun _ => rfl,
      by simp⟩
    unfold spectralPlot
    rw [hlast, List.head?_cons, List.tail_cons]
    simp only [getPar_of_mem f1 f2, bind, Except.bind]
    rw [hchk, produceAxis_ok l1 l2, produceBins_ok l1 l2]
    simp only []
    rw [r1]
    simp only [List.nil_append]
    rw [ebg, etot, hbg, htot]
  | some l =>
    obtain ⟨w1, w2⟩ := hl l hlim
    obtain ⟨b, hb, -, -, hravel, -⟩ := project_ravel w1 w2
    have hlimit := mplHist_centres hw (fun i => contentsAt l [(q.name, i)])
    refine ⟨⟨hs, ⟨_, _⟩, ⟨_, _⟩, some ⟨_, _⟩⟩, ?_, r2, ⟨rfl, rfl⟩, ⟨rfl, rfl⟩, by simp,
      fun l' h => ⟨_, rfl, rfl, by cases h; rfl⟩⟩
    unfold spectralPlot
    rw [hlast, List.head?_cons, List.tail_cons]
    simp only [getPar_of_mem f1 f2, bind, Except.bind]
    rw [hchk, produceAxis_ok l1 l2, produceBins_ok l1 l2]
    simp only []
    rw [r1]
    simp only [List.nil_append]
    rw [ebg, etot, hbg, htot]
    simp only []
    rw [← hqn, hb]
    simp only []
    rw [hravel, hq, hlimit]

/-- **C102, partial.** Several spectra with the same axis are drawn one by one, together with the
sum of all of them, the sum of those of type "background" and the limit: each histogram shows, bin
by bin, the contents it stands for. Missing: the type of a background has to be the very object
of the literal in the code, and the limit has to have the same axis; without these the claim is
false. -/
theorem c102_spectral_plot_partial (entries : List PlotEntry) (hne : entries ≠ []) (p : SPar)
    (he : ∀ e ∈ entries, e.spectrum.WF ∧ p ∈ e.spectrum.cfg)
    (hint : ∀ e ∈ entries, e.kind = some (lit "background") → e.interned = true)
    (limit : Option Spectrum) (hl : ∀ l, limit = some l → l.WF ∧ p ∈ l.cfg) :
    ∃ plot, spectralPlot entries p.name limit = .ok plot ∧
      List.Forall₂ (fun (h : StepHist) (e : PlotEntry) =>
        h.Shows p (fun i => contentsAt e.spectrum [(p.name, i)])) plot.each entries ∧
      plot.background.Shows p (fun i =>
        ((entries.filter (fun e => e.kind = some (lit "background"))).map
          (fun e => contentsAt e.spectrum [(p.name, i)])).sum) ∧
      plot.total.Shows p (fun i =>
        (entries.map (fun e => contentsAt e.spectrum [(p.name, i)])).sum) ∧
      (limit = none → plot.limit = none) ∧
      ∀ l, limit = some l → ∃ h, plot.limit = some h ∧
        h.Shows p (fun i => contentsAt l [(p.name, i)]) := by
  obtain ⟨plot, h1, h2, h3, h4, h5, h6⟩ :=
    spectralPlot_run entries hne he limit p rfl rfl hl
  refine ⟨plot, h1, h2, ?_, h4, h5, h6⟩
  have : entries.filter (fun e => decide (e.kind = some (lit "background"))) =
      entries.filter PlotEntry.isBackground := by
    refine List.filter_congr fun e hm => ?_
    unfold PlotEntry.isBackground
    by_cases hk : e.kind = some (lit "background")
    · rw [hint e hm hk, Bool.and_true]
    · simp [hk]
  rw [this]
  exact h3

theorem forM_error {α : Type} {f : α → Except PyErr Unit} {l : List α} {err : PyErr}
    (h : ∀ x ∈ l, f x = .ok () ∨ f x = .error err) (hx : ∃ x ∈ l, f x = .error err) :
    l.forM f = .error err := by
  induction l with
  | nil => obtain ⟨x, hx, -⟩ := hx; simp at hx
  | cons a l ih =>
    change (f a >>= fun _ => l.forM f) = _
    rcases h a (by simp) with ha | ha
    · rw [ha]
      obtain ⟨x, hx, hfx⟩ := hx
      rcases List.mem_cons.1 hx with rfl | hx
      · rw [ha] at hfx; cases hfx
      · exact ih (fun y hy => h y (by simp [hy])) ⟨x, hx, hfx⟩
    · rw [ha]; rfl

/-- **C102, different axes.** Spectra whose axis differs from that of the first one in a limit or in
the number of bins are refused. -/
theorem c102_refused (first : PlotEntry) (rest : List PlotEntry) (d : PyStr) (p : SPar)
    (hf : first.spectrum.WF ∧ p ∈ first.spectrum.cfg) (hpd : p.name = d)
    (hr : ∀ e ∈ rest, e.spectrum.WF ∧ ∃ q ∈ e.spectrum.cfg, q.name = d)
    (hdiff : ∃ e ∈ rest, ∃ q ∈ e.spectrum.cfg, q.name = d ∧
      (q.low ≠ p.low ∨ q.high ≠ p.high ∨ q.bins ≠ p.bins)) (limit : Option Spectrum) :
    spectralPlot (first :: rest) d limit = .error .assertionError := by
  have hchk : ∀ (e : PlotEntry) (q : SPar), e.spectrum.WF → q ∈ e.spectrum.cfg → q.name = d →
      plotCheck d p e = if q.low ≠ p.low ∨ q.high ≠ p.high ∨ q.bins ≠ p.bins
        then .error .assertionError else .ok () := by
    intro e q h1 h2 h3
    unfold plotCheck
    rw [← h3, getPar_of_mem h1 h2]
    simp only [bind, Except.bind]
    by_cases c1 : q.low ≠ p.low
    · rw [if_pos c1, if_pos (Or.inl c1)]; rfl
    by_cases c2 : q.high ≠ p.high
    · rw [if_neg c1, if_pos c2, if_pos (Or.inr (Or.inl c2))]; rfl
    by_cases c3 : q.bins ≠ p.bins
    · rw [if_neg c1, if_neg c2, if_pos c3, if_pos (Or.inr (Or.inr c3))]; rfl
    · rw [if_neg c1, if_neg c2, if_neg c3, if_neg (by tauto)]; rfl
  have hall : rest.forM (plotCheck d p) = .error .assertionError := by
    refine forM_error (fun e hm => ?_) ?_
    · obtain ⟨h1, q, h2, h3⟩ := hr e hm
      rw [hchk e q h1 h2 h3]
      split
      · exact Or.inr rfl
      · exact Or.inl rfl
    · obtain ⟨e, hm, q, h2, h3, h4⟩ := hdiff
      exact ⟨e, hm, by rw [hchk e q (hr e hm).1 h2 h3, if_pos h4]⟩
  have hlast : ∃ last, (first :: rest).getLast? = some last :=
    ⟨(first :: rest).getLast (by simp), List.getLast?_eq_some_getLast (by simp)⟩
  obtain ⟨last, hlast⟩ := hlast
  unfold spectralPlot
  rw [hlast, List.head?_cons, List.tail_cons, ← hpd]
  simp only [getPar_of_mem hf.1 hf.2, bind, Except.bind]
  rw [hpd, hall]

namespace Ex

/-- a signal and a background on the axes of `spec` -/
def signalEntry : PlotEntry := ⟨spec, some (lit "signal"), false⟩
def backgroundEntry : PlotEntry := ⟨spec, some (lit "background"), true⟩
/-- a background whose type is an equal string, but another object -/
def strangerEntry : PlotEntry := ⟨spec, some (lit "background"), false⟩
/-- a limit with as many bins on a longer axis -/
def longSpec : Spectrum := { spec with cfg := [⟨lit "energy_mc", 0, 10, 10⟩, radial] }

theorem longSpec_wf : longSpec.WF where
  axes := by
    intro p hp
    simp only [longSpec, List.mem_cons, List.not_mem_nil, or_false] at hp
    rcases hp with rfl | rfl
    · constructor <;> norm_num
    · exact radial_wf
  names := by decide
  shape := by decide

end Ex

/-- **C102, negation.** A background whose type is an equal string but not the same object is left
out of the summed background. -/
theorem c102_background_negation :
    ¬ ∀ (entries : List PlotEntry) (p : SPar), entries ≠ [] →
      (∀ e ∈ entries, e.spectrum.WF ∧ p ∈ e.spectrum.cfg) →
      ∃ plot, spectralPlot entries p.name none = .ok plot ∧ plot.background.Shows p (fun i =>
        ((entries.filter (fun e => e.kind = some (lit "background"))).map
          (fun e => contentsAt e.spectrum [(p.name, i)])).sum) := by
  intro h
  obtain ⟨plot, h1, h2⟩ := h [Ex.strangerEntry] Ex.radial (by simp) (by
    simp only [List.mem_singleton, forall_eq]
    exact ⟨Ex.spec_wf, by simp [Ex.strangerEntry, Ex.spec]⟩)
  obtain ⟨plot', g1, -, g3, -⟩ := spectralPlot_run (p := Ex.radial) [Ex.strangerEntry] (by simp) (by
    simp only [List.mem_singleton, forall_eq]
    exact ⟨Ex.spec_wf, by simp [Ex.strangerEntry, Ex.spec]⟩) none Ex.radial rfl rfl (by simp)
  rw [h1] at g1
  cases g1
  have := h2.2.symm.trans g3.2
  revert this
  decide +kernel

/-- **C102, negation for the limit.** A limit with the same number of bins on another axis is drawn
on the axis of the other spectra. -/
theorem c102_limit_negation :
    ¬ ∀ (entries : List PlotEntry) (p q : SPar) (l : Spectrum) (plot : SpectralPlot),
      entries ≠ [] → (∀ e ∈ entries, e.spectrum.WF ∧ p ∈ e.spectrum.cfg) → l.WF → q ∈ l.cfg →
      q.name = p.name → spectralPlot entries p.name (some l) = .ok plot →
      ∃ h, plot.limit = some h ∧ h.Shows q (fun i => contentsAt l [(p.name, i)]) := by
  intro h
  have he : ∀ e ∈ [Ex.signalEntry], e.spectrum.WF ∧ Ex.energy ∈ e.spectrum.cfg := by
    simp only [List.mem_singleton, forall_eq]
    exact ⟨Ex.spec_wf, by simp [Ex.signalEntry, Ex.spec]⟩
  obtain ⟨plot, g1, -, -, -, -, g6⟩ := spectralPlot_run (p := Ex.energy) [Ex.signalEntry] (by simp)
    he (some Ex.longSpec) ⟨lit "energy_mc", 0, 10, 10⟩ rfl rfl (by
      intro l hl; cases hl; exact ⟨Ex.longSpec_wf, by simp [Ex.longSpec]⟩)
  obtain ⟨h1, e1, s1⟩ := g6 _ rfl
  obtain ⟨h2, e2, s2⟩ := h [Ex.signalEntry] Ex.energy ⟨lit "energy_mc", 0, 10, 10⟩ Ex.longSpec plot
    (by simp) he Ex.longSpec_wf (by simp [Ex.longSpec]) rfl g1
  rw [e1] at e2
  cases e2
  have := s1.1.symm.trans s2.1
  revert this
  decide +kernel

/-- **C102, negation for ROOT.** The function of the same name for ROOT never returns a plot; for
spectra with the dimension it fails with an `AttributeError`. -/
theorem c102_root_negation :
    (∀ entries d, ∃ err, rootSpectralPlot entries d = .error err) ∧
      rootSpectralPlot [Ex.signalEntry, Ex.backgroundEntry] (lit "energy") =
        .error .attributeError := by
  constructor
  · intro entries d
    unfold rootSpectralPlot
    match entries with
    | [] => exact ⟨_, rfl⟩
    | first :: rest =>
      dsimp only
      cases getDimType first.spectrum.pars d with
      | error e => exact ⟨e, rfl⟩
      | ok ty =>
        simp only [bind, Except.bind]
        cases first.spectrum.getPar (d ++ '_' :: ty) with
        | error e => exact ⟨e, rfl⟩
        | ok p => exact ⟨_, rfl⟩
  · decide +kernel

example : [Ex.signalEntry, Ex.backgroundEntry] ≠ [] ∧
    (∀ e ∈ [Ex.signalEntry, Ex.backgroundEntry], e.spectrum.WF ∧ Ex.radial ∈ e.spectrum.cfg) ∧
    (∀ e ∈ [Ex.signalEntry, Ex.backgroundEntry],
      e.kind = some (lit "background") → e.interned = true) ∧
    ∀ l, some Ex.spec = some l → l.WF ∧ Ex.radial ∈ l.cfg := by
  refine ⟨by simp, ?_, by decide, ?_⟩
  · intro e he
    simp only [List.mem_cons, List.not_mem_nil, or_false] at he
    rcases he with rfl | rfl <;>
      exact ⟨Ex.spec_wf, by simp [Ex.signalEntry, Ex.backgroundEntry, Ex.spec]⟩
  · intro l hl; cases hl
    exact ⟨Ex.spec_wf, by simp [Ex.spec]⟩

end Verif
