import Verif.Lemmas.FitFixed
import Verif.Spec.FitExamples

/-! # C63: the fixed background -/

namespace Verif

open Spectrum

/-! ### names after shrinking -/

theorem shrinkLoop_names (kw : List (PyStr × ℚ)) (cfg : List SPar) :
    (shrinkLoop kw cfg).1.map SPar.name = cfg.map SPar.name := by
  induction cfg with
  | nil => rfl
  | cons p cfg ih =>
    rw [shrinkLoop]
    cases h : shrinkPar kw p with
    | error e => rfl
    | ok r =>
      obtain ⟨p', b⟩ := r
      simp only [List.map_cons, ih]
      congr 1
      unfold shrinkPar at h
      simp only at h
      split at h
      · cases h
      · cases h; rfl

theorem shrink_names (s : Spectrum) (kw : List (PyStr × ℚ)) :
    (s.shrink kw).st.cfg.map SPar.name = s.cfg.map SPar.name := by
  unfold Spectrum.shrink
  split
  · rfl
  · dsimp only
    split <;> exact shrinkLoop_names kw s.cfg

theorem shrink_meta (s : Spectrum) (kw : List (PyStr × ℚ)) :
    (s.shrink kw).st.numDecays = s.numDecays ∧ (s.shrink kw).st.rawEvents = s.rawEvents := by
  unfold Spectrum.shrink
  split
  · exact ⟨rfl, rfl⟩
  · dsimp only
    split <;> exact ⟨rfl, rfl⟩

theorem scale_err {u : Spectrum} {n : ℚ} (h : (u.scale n).err = none) : u.numDecays ≠ 0 := by
  intro h0
  unfold Spectrum.scale at h
  rw [if_pos h0] at h
  cases h

theorem prep_of_shrunkScaled {roi : Dict (ℚ × ℚ)} {s t : Spectrum} {n : ℚ}
    (hd : DistinctDims s.cfg) (hr : IsDict roi) (h : ShrunkScaled roi s n t) :
    Prep roi true s n t := by
  obtain ⟨kw, h1, h2, h3, h4⟩ := h
  refine ⟨(s.shrink kw).st, by simpa using ⟨kw, roiKw_of_asks hd h1 hr, h2, rfl⟩, scale_err h4, ?_⟩
  rw [h3, scale_run _ (scale_err h4)]
  rfl

theorem shrunkScaled_names {roi : Dict (ℚ × ℚ)} {s t : Spectrum} {n : ℚ}
    (h : ShrunkScaled roi s n t) : t.cfg.map SPar.name = s.cfg.map SPar.name ∧
      t.numDecays = n ∧ t.rawEvents = s.rawEvents := by
  obtain ⟨kw, -, -, h3, h4⟩ := h
  rw [h3, scale_run _ (scale_err h4)]
  exact ⟨shrink_names s kw, rfl, (shrink_meta s kw).2⟩

/-! ### parameters of the region -/

theorem roiPars_ok {axes : List SPar} (hd : DistinctDims axes) {roi : Dict (ℚ × ℚ)}
    (h : ∀ e ∈ roi, ∃ p ∈ axes, OfDim p.name e.1) {s : Spectrum}
    (hs : s.cfg.map SPar.name = axes.map SPar.name) :
    ∃ pars, roiPars roi s = .ok pars ∧ RoiNames s.cfg roi pars := by
  unfold roiPars RoiNames Spectrum.pars
  rw [hs]
  induction roi with
  | nil => exact ⟨[], rfl, .nil⟩
  | cons e roi ih =>
    obtain ⟨pars, h1, h2⟩ := ih fun x hx => h x (List.mem_cons_of_mem _ hx)
    obtain ⟨p, hp, hpd⟩ := h e List.mem_cons_self
    obtain ⟨ty, h3, h4⟩ := getDimType_of hd hp hpd
    refine ⟨p.name :: pars, ?_, .cons ⟨hpd, ?_⟩ h2⟩
    · rw [List.mapM_cons, h3]
      simp only [bind, Except.bind, pure, Except.pure]
      simp only [bind, Except.bind, pure, Except.pure] at h1
      rw [h1, ← h4]
    · have : p.name ∈ s.cfg.map SPar.name := by rw [hs]; exact List.mem_map_of_mem hp
      obtain ⟨q, hq, hqn⟩ := List.mem_map.1 this
      exact ⟨q, hq, hqn⟩

theorem asksRoi_dims {axes : List SPar} {roi : Dict (ℚ × ℚ)} {kw : List (PyStr × ℚ)}
    (h : AsksRoi axes roi kw) : ∀ e ∈ roi, ∃ p ∈ axes, OfDim p.name e.1 := by
  induction h with
  | nil => intro e he; cases he
  | cons p dim low high roi kw hp hd _ ih =>
    intro e he
    rcases List.mem_cons.1 he with rfl | he
    exacts [⟨p, hp, hd⟩, ih e he]

theorem checkSpectra_ok {s : Spectrum} (hd : DistinctDims s.cfg)
    (hn : (s.cfg.map SPar.name).Nodup) {roi : Dict (ℚ × ℚ)} (h : FitsRoi s.cfg roi) :
    checkSpectra roi s = .ok () := by
  unfold checkSpectra
  rw [forM_except_ok]
  intro e he
  obtain ⟨p, hp, hpd, h1, h2⟩ := h e he
  obtain ⟨ty, h3, h4⟩ := getDimType_of hd hp hpd
  unfold checkSpectraDim
  have h3' : getDimType s.pars e.1 = .ok ty := h3
  rw [h3']
  simp only [bind, Except.bind]
  rw [← h4, getPar_mem hn hp]
  simp only
  rw [if_neg (not_not.2 (show npClose _ _ from h1)), if_neg (not_not.2 (show npClose _ _ from h2))]
  rfl

/-! ### making the background -/

/-- The loop of `make_fixed_background` for prepared spectra. -/
theorem makeFixed_run {roi : Dict (ℚ × ℚ)} {shrink : Bool} {st : FitState} {e : ℕ × ℚ}
    {d : List (ℕ × ℚ)} {t : Spectrum} {ts : List Spectrum}
    (ha : st.Allocated ((e :: d).map Prod.fst))
    (hc : shrink = true → ((e :: d).map (fun e => (st.objs e.1).cfg)).Nodup)
    (hF : List.Forall₂ (fun e t => Prep roi shrink (st.view e.1) e.2 t) (e :: d) (t :: ts))
    (hn : (t.cfg.map SPar.name).Nodup)
    (hax : ∀ t' ∈ ts, t'.cfg = t.cfg ∧ t'.data.shape = t.data.shape) :
    ∃ st', makeFixed roi shrink (e :: d) st = (st', .ok st.next) ∧
      (st'.view st.next).name = lit "Fixed Background" ∧
      IsTotal (t :: ts) (st'.view st.next) ∧
      (∀ q, q < st.next → st'.objs q = st.objs q) ∧
      (∀ c, c ∉ (e :: d).map (fun e => (st.objs e.1).cfg) → st'.cfgs c = st.cfgs c) ∧
      (∀ e' ∈ e :: d, st'.cfgs (st.objs e'.1).cfg = t.cfg) ∧
      (st'.objs st.next).cfg = (st.objs e.1).cfg := by
  obtain ⟨r, n⟩ := e
  cases hF with
  | cons hp hF =>
  obtain ⟨st1, hrun, P⟩ := prepareFixed_run hp
  dsimp only at hp P
  have hall : ∀ e ∈ (r, n) :: d, e.1 < st.next := fun e he => ha _ (List.mem_map_of_mem he)
  -- the state with the new name
  let st2 : FitState := { st1 with
    objs := Function.update st1.objs st.next { st1.objs st.next with name := lit "Fixed Background" } }
  have hv2 : st2.view st.next =
      { t with name := lit "Fixed Background", data := t.data.norm } := by
    have h := P.view
    simp only [FitState.view] at h
    simp only [st2, FitState.view, Function.update_self]
    rw [Spectrum.mk.injEq] at h ⊢
    exact ⟨rfl, h.2⟩
  have hobj2 : ∀ q, q < st.next → st2.objs q = st.objs q := by
    intro q hq
    show Function.update _ _ _ q = _
    rw [Function.update_of_ne hq.ne, P.objs q hq.ne]
  have hcr2 : (st2.objs st.next).cfg = (st.objs r).cfg := by
    simp only [st2, Function.update_self]
    exact P.cfg
  have hview2 : ∀ e ∈ d, st2.view e.1 = st.view e.1 := by
    intro e he
    have hlt := hall e (List.mem_cons_of_mem _ he)
    cases hsh : shrink with
    | false =>
      have hsame : st1.cfgs = st.cfgs := by
        rw [P.cfgs]
        obtain ⟨u, hu, -, rfl⟩ := hp
        rw [hsh] at hu
        simp only [Bool.false_eq_true, if_false] at hu
        subst hu
        exact Function.update_eq_self _ _
      simp only [FitState.view, hobj2 e.1 hlt]
      show Spectrum.mk _ (st1.cfgs _) _ _ _ _ = _
      rw [hsame]
    | true =>
      have hne : (st.objs e.1).cfg ≠ (st.objs r).cfg := by
        have := hc hsh
        rw [List.map_cons, List.nodup_cons] at this
        intro h
        exact this.1 (List.mem_map.2 ⟨e, he, h⟩)
      simp only [FitState.view, hobj2 e.1 hlt]
      show Spectrum.mk _ (st1.cfgs _) _ _ _ _ = _
      rw [P.cfgs, Function.update_of_ne hne]
  have hmapc : d.map (fun e => (st2.objs e.1).cfg) = d.map (fun e => (st.objs e.1).cfg) :=
    List.map_congr_left fun e he => by
      rw [hobj2 e.1 (hall e (List.mem_cons_of_mem _ he))]
  have hnext2 : st2.next = st.next + 1 := P.next
  obtain ⟨st', b1, b2, b3, b4, b5, b6, b7, b8, b9, b10, b11, b12, b13⟩ :=
    appendFixed_run (roi := roi) (shrink := shrink) (total := st.next) d ts st2
      (by omega)
      (fun e he => by
        have := hall e (List.mem_cons_of_mem _ he)
        exact ⟨by omega, this.ne⟩)
      (fun h e he => by
        rw [hobj2 e.1 (hall e (List.mem_cons_of_mem _ he)), hcr2]
        have := hc h
        rw [List.map_cons, List.nodup_cons] at this
        intro h
        exact this.1 (List.mem_map.2 ⟨e, he, h⟩))
      (fun h => by
        rw [hmapc]
        have := hc h
        rw [List.map_cons, List.nodup_cons] at this
        exact this.2)
      (by
        have : ∀ (l : List (ℕ × ℚ)) (us : List Spectrum), (∀ e ∈ l, st2.view e.1 = st.view e.1) →
            List.Forall₂ (fun e t => Prep roi shrink (st.view e.1) e.2 t) l us →
            List.Forall₂ (fun e t => Prep roi shrink (st2.view e.1) e.2 t) l us := by
          intro l us hl h
          induction h with
          | nil => exact .nil
          | cons h1 _ ih =>
            refine .cons ?_ (ih fun e he => hl e (List.mem_cons_of_mem _ he))
            rw [hl _ List.mem_cons_self]; exact h1
        exact this d ts hview2 hF)
      (by rw [hv2]; exact hn)
      (fun t' ht' => by rw [hv2]; exact hax t' ht')
  rw [hv2] at b7 b8 b10 b11 b12 b13
  refine ⟨st', ?_, b7, ?_, ?_, ?_, ?_, b4.trans hcr2⟩
  · show (prepareFixed roi shrink (r, n) >>= _) st = _
    rw [FitM.bind_ok hrun, FitM.change_bind, FitM.bind_ok b1]
    rfl
  · constructor
    · intro t' ht'
      rcases List.mem_cons.1 ht' with rfl | ht'
      · exact ⟨b8, b10⟩
      · obtain ⟨h1, h2⟩ := hax t' ht'
        exact ⟨b8.trans h1.symm, b10.trans h2.symm⟩
    · intro idx hi
      rw [b10] at hi
      rw [b11 idx hi, List.map_cons, List.sum_cons]
      congr 1
      exact NdArray.norm_get hi
    · rw [b12]; simp
    · rw [b13]; simp
  · intro q hq
    rw [b3 q (by omega) hq.ne, hobj2 q hq]
  · intro c hcn
    rw [List.map_cons, List.mem_cons, not_or] at hcn
    rw [b5 c (by rw [hmapc]; exact hcn.2)]
    show st1.cfgs c = _
    rw [P.cfgs, Function.update_of_ne hcn.1]
  · intro e' he'
    by_cases hin : (st.objs e'.1).cfg ∈ d.map (fun e => (st.objs e.1).cfg)
    · obtain ⟨e, he, heq⟩ := List.mem_map.1 hin
      have := b6 e he
      rw [hobj2 e.1 (hall e (List.mem_cons_of_mem _ he)), heq, hv2] at this
      exact this
    · rcases List.mem_cons.1 he' with rfl | he
      · rw [b5 _ (by rw [hmapc]; exact hin)]
        show st1.cfgs _ = _
        rw [P.cfgs, Function.update_self]
      · exact absurd (List.mem_map.2 ⟨e', he, rfl⟩) hin

theorem forall₂_map_decays {roi : Dict (ℚ × ℚ)} {st : FitState} {d : List (ℕ × ℚ)}
    {ts : List Spectrum} (h : List.Forall₂ (fun e t => ShrunkScaled roi (st.view e.1) e.2 t) d ts) :
    ts.map Spectrum.numDecays = d.map Prod.snd ∧
    ts.map Spectrum.rawEvents = d.map (fun e => (st.view e.1).rawEvents) := by
  induction h with
  | nil => exact ⟨rfl, rfl⟩
  | cons h _ ih =>
    simp only [List.map_cons]
    rw [ih.1, ih.2, (shrunkScaled_names h).2.1, (shrunkScaled_names h).2.2]
    exact ⟨rfl, rfl⟩

theorem Suppliable.prep {roi : Dict (ℚ × ℚ)} {d : List (ℕ × ℚ)} {ts : List Spectrum}
    {st : FitState} (h : Suppliable roi d ts st) :
    List.Forall₂ (fun e t => Prep roi true (st.view e.1) e.2 t) d ts := by
  have h1 := h.shrunk
  have h2 := h.dims
  have h3 := h.region
  clear h
  induction h1 with
  | nil => exact .nil
  | cons h _ ih =>
    exact .cons (prep_of_shrunkScaled (h2 _ List.mem_cons_self) h3 h)
      (ih fun e he => h2 e (List.mem_cons_of_mem _ he))

theorem makeFixedBackground_shrunk {roi : Dict (ℚ × ℚ)} {d : List (ℕ × ℚ)} {ts : List Spectrum}
    {st : FitState} (hd : d ≠ []) (h : Suppliable roi d ts st) :
    ∃ st' pars, makeFixedBackground roi true d st = (st', .ok (st.next, pars)) ∧
      (st'.view st.next).name = lit "Fixed Background" ∧
      IsTotal ts (st'.view st.next) ∧
      RoiNames (st'.view st.next).cfg roi pars ∧
      (∀ q, q < st.next → st'.objs q = st.objs q) ∧
      (∀ c, c ∉ d.map (fun e => (st.objs e.1).cfg) → st'.cfgs c = st.cfgs c) ∧
      (∀ e ∈ d, ∀ t ∈ ts, st'.cfgs (st.objs e.1).cfg = t.cfg) ∧
      ∃ e ∈ d, (st'.objs st.next).cfg = (st.objs e.1).cfg := by
  cases d with
  | nil => exact absurd rfl hd
  | cons e d =>
    obtain ⟨ha, hown, hroi, hdims, hnames, hsh, hax⟩ := h
    have hprep := Suppliable.prep ⟨ha, hown, hroi, hdims, hnames, hsh, hax⟩
    cases hsh with
    | cons hs hsh =>
    rename_i t ts
    have hn := (shrunkScaled_names hs).1
    obtain ⟨st', b1, b2, b3, b4, b5, b6, b7⟩ := makeFixed_run ha (fun _ => hown) hprep
      (by rw [hn]; exact hnames e List.mem_cons_self)
      (fun t' ht' => hax t List.mem_cons_self t' (List.mem_cons_of_mem _ ht'))
    have hcfg := (b3.axes t List.mem_cons_self).1
    obtain ⟨kw, hkw, -⟩ := id hs
    obtain ⟨pars, hp1, hp2⟩ := roiPars_ok (hdims e List.mem_cons_self) (asksRoi_dims hkw)
      (s := st'.view st.next) (by rw [hcfg, hn])
    refine ⟨st', pars, ?_, b2, b3, hp2, b4, b5, ?_, e, List.mem_cons_self, b7⟩
    · unfold makeFixedBackground
      rw [FitM.bind_ok b1, FitM.read_bind, FitM.lift_bind]
      simp only [if_true]
      rw [FitM.lift_bind, hp1]
      rfl
    · intro e' he' t' ht'
      rw [b6 e' he', (hax t' ht' t List.mem_cons_self).1]

/-- **C63, the sum, partial.** If each spectrum has its own configuration object, the fixed
background has in every cell the sum of the individually shrunk and scaled spectra, and the
sums of the expected counts and raw events; its parameters are those of the region. The
objects of the supplied spectra (contents, counts, names) are not changed. (Missing: the
axes of the supplied spectra do change, see `c63_supplied_negation`; without the condition
on configurations the sum is wrong, see `c63_shared_negation`.) -/
theorem c63_sum_partial (roi : Dict (ℚ × ℚ)) (d : List (ℕ × ℚ)) (ts : List Spectrum)
    (st : FitState) (hd : d ≠ []) (h : Suppliable roi d ts st) :
    ∃ st' total pars, makeFixedBackground roi true d st = (st', .ok (total, pars)) ∧
      (st'.view total).name = lit "Fixed Background" ∧
      IsTotal ts (st'.view total) ∧
      (st'.view total).numDecays = (d.map Prod.snd).sum ∧
      (st'.view total).rawEvents = (d.map (fun e => (st.view e.1).rawEvents)).sum ∧
      RoiNames (st'.view total).cfg roi pars ∧
      ∀ q, q < st.next → st'.objs q = st.objs q := by
  obtain ⟨st', pars, b1, b2, b3, b4, b5, -, -⟩ := makeFixedBackground_shrunk hd h
  refine ⟨st', st.next, pars, b1, b2, b3, ?_, ?_, b4, b5⟩
  · rw [b3.numDecays, (forall₂_map_decays h.shrunk).1]
  · rw [b3.rawEvents, (forall₂_map_decays h.shrunk).2]

/-- **C63, order, partial.** Under the same condition the iteration order of the dictionary
does not matter. -/
theorem c63_order_partial (roi : Dict (ℚ × ℚ)) (d d' : List (ℕ × ℚ)) (ts : List Spectrum)
    (st : FitState) (hd : d ≠ []) (h : Suppliable roi d ts st) (hp : d.Perm d') :
    ∃ st1 st2 total1 total2 pars1 pars2,
      makeFixedBackground roi true d st = (st1, .ok (total1, pars1)) ∧
      makeFixedBackground roi true d' st = (st2, .ok (total2, pars2)) ∧
      (st1.view total1).cfg = (st2.view total2).cfg ∧
      (st1.view total1).data.Eqv (st2.view total2).data ∧
      (st1.view total1).numDecays = (st2.view total2).numDecays ∧
      (st1.view total1).rawEvents = (st2.view total2).rawEvents := by
  -- the prepared spectra in the other order
  obtain ⟨ts', hF', hpt⟩ : ∃ ts', List.Forall₂ (fun e t => ShrunkScaled roi (st.view e.1) e.2 t)
      d' ts' ∧ ts.Perm ts' := by
    have hF := h.shrunk
    clear h hd
    induction hp generalizing ts with
    | nil => exact ⟨ts, hF, .refl _⟩
    | cons x _ ih =>
      cases hF with
      | cons h1 h2 =>
        obtain ⟨ts', h3, h4⟩ := ih _ h2
        exact ⟨_ :: ts', .cons h1 h3, h4.cons _⟩
    | swap x y l =>
      cases hF with
      | cons h1 h2 =>
        cases h2 with
        | cons h2 h3 => exact ⟨_, .cons h2 (.cons h1 h3), .swap _ _ _⟩
    | trans _ _ ih1 ih2 =>
      obtain ⟨ts1, h1, h2⟩ := ih1 _ hF
      obtain ⟨ts2, h3, h4⟩ := ih2 _ h1
      exact ⟨ts2, h3, h2.trans h4⟩
  have hd' : d' ≠ [] := by rintro rfl; exact hd hp.eq_nil
  have h' : Suppliable roi d' ts' st := by
    refine ⟨fun r hr => h.alloc r ((hp.map _).mem_iff.2 hr), (hp.map _).nodup_iff.1 h.own, h.region,
      fun e he => h.dims e (hp.mem_iff.2 he), fun e he => h.names e (hp.mem_iff.2 he), hF', ?_⟩
    intro t ht t' ht'
    exact h.axes t (hpt.mem_iff.2 ht) t' (hpt.mem_iff.2 ht')
  obtain ⟨st1, pars1, a1, -, a3, -⟩ := makeFixedBackground_shrunk hd h
  obtain ⟨st2, pars2, b1, -, b3, -⟩ := makeFixedBackground_shrunk hd' h'
  have hne : ts ≠ [] := by
    rintro rfl
    cases hF : h.shrunk
    exact hd rfl
  obtain ⟨t, hts⟩ := List.exists_mem_of_ne_nil ts hne
  have hax1 := a3.axes t hts
  have hax2 := b3.axes t (hpt.mem_iff.1 hts)
  refine ⟨st1, st2, _, _, pars1, pars2, a1, b1, hax1.1.trans hax2.1.symm, ⟨?_, ?_⟩, ?_, ?_⟩
  · exact hax1.2.trans hax2.2.symm
  · intro idx hi
    rw [a3.cells idx hi, b3.cells idx (by rw [hax2.2, ← hax1.2]; exact hi)]
    exact (hpt.map _).sum_eq
  · rw [a3.numDecays, b3.numDecays]; exact (hpt.map _).sum_eq
  · rw [a3.rawEvents, b3.rawEvents]; exact (hpt.map _).sum_eq

/-- **C63, supplied spectra, negation.** The supplied spectra are not left as they were: the
configuration object is shared with the copy, so each supplied spectrum afterwards has the
shrunk axes, with its whole array. -/
theorem c63_supplied_negation (roi : Dict (ℚ × ℚ)) (d : List (ℕ × ℚ)) (ts : List Spectrum)
    (st : FitState) (hd : d ≠ []) (h : Suppliable roi d ts st) (e : ℕ × ℚ) (he : e ∈ d)
    (t : Spectrum) (ht : t ∈ ts) (hcut : t.cfg ≠ (st.view e.1).cfg) :
    let st' := (makeFixedBackground roi true d st).1
    (st'.view e.1).cfg = t.cfg ∧ (st'.view e.1).data = (st.view e.1).data ∧
    st'.view e.1 ≠ st.view e.1 := by
  obtain ⟨st', pars, b1, -, -, -, b5, -, b7, -⟩ := makeFixedBackground_shrunk hd h
  rw [b1]
  have hobj := b5 e.1 (h.alloc _ (List.mem_map_of_mem he))
  have hcfg : (st'.view e.1).cfg = t.cfg := by
    simp only [FitState.view, hobj]
    exact b7 e he t ht
  refine ⟨hcfg, ?_, ?_⟩
  · simp only [FitState.view, hobj]
  · intro heq
    exact hcut (by rw [← hcfg, heq])

/-- **C63, without shrinking.** If the spectra already have the range of the region and are
not shrunk, the result is the sum of the scaled spectra, whether or not configurations are
shared, and the supplied spectra are unchanged. -/
theorem c63_unshrunk (roi : Dict (ℚ × ℚ)) (d : List (ℕ × ℚ)) (st : FitState) (hd : d ≠ [])
    (axes : List SPar) (shape : List ℕ) (ha : st.Allocated (d.map Prod.fst))
    (hs : ∀ e ∈ d, (st.view e.1).cfg = axes ∧ (st.view e.1).data.shape = shape ∧
      (st.view e.1).numDecays ≠ 0)
    (hdims : DistinctDims axes) (hnames : (axes.map SPar.name).Nodup) (hroi : FitsRoi axes roi) :
    ∃ st' total pars, makeFixedBackground roi false d st = (st', .ok (total, pars)) ∧
      (st'.view total).name = lit "Fixed Background" ∧
      IsTotal (d.map (fun e => ((st.view e.1).scale e.2).st)) (st'.view total) ∧
      RoiNames axes roi pars ∧
      ∀ q, q < st.next → st'.view q = st.view q := by
  cases d with
  | nil => exact absurd rfl hd
  | cons e d =>
    have hsc : ∀ e' ∈ e :: d, ((st.view e'.1).scale e'.2).st = { st.view e'.1 with
        data := (st.view e'.1).data.smul (e'.2 / (st.view e'.1).numDecays), numDecays := e'.2 } := by
      intro e' he'
      rw [scale_run _ (hs e' he').2.2]; rfl
    have hprep : List.Forall₂ (fun e t => Prep roi false (st.view e.1) e.2 t) (e :: d)
        ((e :: d).map (fun e => ((st.view e.1).scale e.2).st)) := by
      rw [List.forall₂_map_right_iff, List.forall₂_same]
      intro e' he'
      exact ⟨st.view e'.1, by simp, (hs e' he').2.2, hsc e' he'⟩
    have h0 := hs e List.mem_cons_self
    rw [List.map_cons] at hprep
    obtain ⟨st', b1, b2, b3, b4, b5, b6, -⟩ := makeFixed_run ha (by simp) hprep
      (by rw [hsc e List.mem_cons_self]; show (List.map _ (st.view e.1).cfg).Nodup; rw [h0.1]; exact hnames)
      (by
        intro t' ht'
        obtain ⟨e', he', rfl⟩ := List.mem_map.1 ht'
        have h1 := hs e' (List.mem_cons_of_mem _ he')
        rw [hsc e List.mem_cons_self, hsc e' (List.mem_cons_of_mem _ he')]
        exact ⟨h1.1.trans h0.1.symm, h1.2.1.trans h0.2.1.symm⟩)
    have hcfg : (st'.view st.next).cfg = axes := by
      rw [(b3.axes _ List.mem_cons_self).1, hsc e List.mem_cons_self]; exact h0.1
    obtain ⟨pars, hp1, hp2⟩ := roiPars_ok (axes := axes) hdims
      (fun e he => by obtain ⟨p, hp, hpd, -⟩ := hroi e he; exact ⟨p, hp, hpd⟩)
      (s := st'.view st.next) (by rw [hcfg])
    refine ⟨st', st.next, pars, ?_, b2, b3, ?_, ?_⟩
    · unfold makeFixedBackground
      rw [FitM.bind_ok b1, FitM.read_bind, FitM.lift_bind]
      simp only [Bool.false_eq_true, if_false]
      rw [checkSpectra_ok (by rw [hcfg]; exact hdims) (by rw [hcfg]; exact hnames)
        (by rw [hcfg]; exact hroi)]
      simp only
      rw [FitM.lift_bind, hp1]
      rfl
    · rw [hcfg] at hp2; exact hp2
    · intro q hq
      simp only [FitState.view, b4 q hq]
      by_cases hin : (st.objs q).cfg ∈ (e :: d).map (fun e => (st.objs e.1).cfg)
      · obtain ⟨e', he', heq⟩ := List.mem_map.1 hin
        have h1 := b6 e' he'
        rw [hsc e List.mem_cons_self] at h1
        have h2 : st.cfgs (st.objs e'.1).cfg = axes := (hs e' he').1
        rw [← heq, h1, h2]
        exact congrArg (fun c => Spectrum.mk _ c _ _ _ _) h0.1
      · rw [b5 _ hin]

/-- **C63, empty, negation.** An empty dictionary raises `NameError`. -/
theorem c63_empty_negation (roi : Dict (ℚ × ℚ)) (shrink : Bool) (st : FitState) :
    makeFixedBackground roi shrink [] st = (st, .error .nameError) := rfl

/-- **C63, adding later, partial.** Spectra added to an existing fixed background with the same
axes (and another configuration object) are added cell by cell; all other objects are not
changed. -/
theorem c63_append_partial (roi : Dict (ℚ × ℚ)) (d : List (ℕ × ℚ)) (ts : List Spectrum)
    (st : FitState) (total : ℕ) (ht : total < st.next)
    (hn : ((st.view total).cfg.map SPar.name).Nodup) (h : Suppliable roi d ts st)
    (hown : ∀ e ∈ d, e.1 ≠ total ∧ (st.objs e.1).cfg ≠ (st.objs total).cfg)
    (hax : ∀ t ∈ ts, t.cfg = (st.view total).cfg ∧ t.data.shape = (st.view total).data.shape) :
    ∃ st', appendFixed roi true total d st = (st', .ok ()) ∧
      IsTotal (st.view total :: ts) (st'.view total) ∧
      (st'.view total).name = (st.view total).name ∧
      ∀ q, q < st.next → q ≠ total → st'.objs q = st.objs q := by
  obtain ⟨st', b1, -, b3, -, -, -, b7, b8, -, b10, b11, b12, b13⟩ :=
    appendFixed_run (roi := roi) (shrink := true) d ts st ht
      (fun e he => ⟨h.alloc _ (List.mem_map_of_mem he), (hown e he).1⟩)
      (fun _ e he => (hown e he).2) (fun _ => h.own) h.prep hn hax
  refine ⟨st', b1, ⟨?_, ?_, ?_, ?_⟩, b7, b3⟩
  · intro t ht'
    rcases List.mem_cons.1 ht' with rfl | ht'
    · exact ⟨b8, b10⟩
    · exact ⟨b8.trans (hax t ht').1.symm, b10.trans (hax t ht').2.symm⟩
  · intro idx hi
    rw [b10] at hi
    rw [b11 idx hi, List.map_cons, List.sum_cons]
  · rw [b12, List.map_cons, List.sum_cons]
  · rw [b13, List.map_cons, List.sum_cons]

/-! ### cases that meet the hypotheses -/

/-- Upper part of the energy range. -/
def exFitRoi : Dict (ℚ × ℚ) := [(lit "energy", (1, 2))]

/-- The keyword arguments for this region. -/
def exFitKw : List (PyStr × ℚ) := [(lit "energy_mc" ++ lit "_low", 1), (lit "energy_mc" ++ lit "_high", 2)]

/-- The spectra 2 and 3, shrunk and scaled. -/
noncomputable def exFitPrepared (st : FitState) : List Spectrum :=
  [(((st.view 2).shrink exFitKw).st.scale 20).st, (((st.view 3).shrink exFitKw).st.scale 5).st]

theorem fitAxis_dims : DistinctDims [Ex.fitAxis] := by
  intro p hp q hq d _ _
  rw [List.mem_singleton.1 hp, List.mem_singleton.1 hq]

theorem exFit_asks : AsksRoi [Ex.fitAxis] exFitRoi exFitKw :=
  .cons Ex.fitAxis (lit "energy") 1 2 [] [] (by simp) ⟨lit "mc", by decide, rfl⟩ .nil

theorem exFit_suppliable :
    Suppliable exFitRoi [(2, 20), (3, 5)] (exFitPrepared Ex.fitState) Ex.fitState where
  alloc := by intro r hr; simp at hr; rcases hr with rfl | rfl <;> simp [Ex.fitState]
  own := by decide
  region := by unfold IsDict; decide
  dims := fun _ _ => fitAxis_dims
  names := fun _ _ => by
    show ([Ex.fitAxis].map SPar.name).Nodup
    simp
  shrunk := .cons ⟨exFitKw, exFit_asks, by decide +kernel, rfl, by decide +kernel⟩
    (.cons ⟨exFitKw, exFit_asks, by decide +kernel, rfl, by decide +kernel⟩ .nil)
  axes := by
    have h1 : ∀ r n, (r = 2 ∨ r = 3) → (n = 20 ∨ n = 5) →
        ((((Ex.fitState.view r).shrink exFitKw).st.scale n).st.cfg =
          [⟨lit "energy_mc", 1, 2, 2⟩] ∧
        (((Ex.fitState.view r).shrink exFitKw).st.scale n).st.data.shape = [2]) := by
      rintro r n (rfl | rfl) (rfl | rfl) <;> decide +kernel
    intro t ht t' ht'
    simp only [exFitPrepared, List.mem_cons, List.not_mem_nil, or_false] at ht ht'
    rcases ht with rfl | rfl <;> rcases ht' with rfl | rfl <;>
      simp only [(h1 2 20 (by simp) (by simp)), (h1 3 5 (by simp) (by simp)), and_self]

example := c63_sum_partial _ _ _ _ (by simp) exFit_suppliable
example := c63_order_partial _ _ [(3, 5), (2, 20)] _ _ (by simp) exFit_suppliable (.swap _ _ _)
example := c63_supplied_negation _ _ _ _ (by simp) exFit_suppliable (2, 20) (by simp) _
  (List.mem_cons_self) (by decide +kernel)
example := c63_unshrunk [(lit "energy", (0, 2))] [(2, 20), (3, 5)] Ex.fitState (by simp)
  [Ex.fitAxis] [4] exFit_suppliable.alloc
  (by intro e he; simp only [List.mem_cons, List.not_mem_nil, or_false] at he
      rcases he with rfl | rfl <;> exact ⟨rfl, rfl, by decide +kernel⟩)
  fitAxis_dims (by simp)
  (by intro e he
      rw [List.mem_singleton.1 he]
      exact ⟨Ex.fitAxis, by simp, ⟨lit "mc", by decide, rfl⟩, by norm_num [Ex.fitAxis],
        by norm_num [Ex.fitAxis]⟩)

/-- The background 3 as total, after it was cut to the region (only its own configuration). -/
noncomputable def exFitCut : FitState :=
  Ex.fitState.write 1 (((Ex.fitState.view 1).shrink exFitKw).st)

example : ∃ st', appendFixed exFitRoi true 1 [(2, 20)] exFitCut = (st', .ok ()) ∧
    IsTotal [exFitCut.view 1, (((exFitCut.view 2).shrink exFitKw).st.scale 20).st]
      (st'.view 1) := by
  have hv : exFitCut.view 2 = Ex.fitState.view 2 :=
    FitState.view_write_old _ _ _ (by decide) (by decide)
  have hd2 : (exFitCut.view 2).cfg = [Ex.fitAxis] := by rw [hv]; rfl
  have hS : Suppliable exFitRoi [(2, 20)] [(((exFitCut.view 2).shrink exFitKw).st.scale 20).st]
      exFitCut := by
    refine ⟨?_, by simp, exFit_suppliable.region, ?_, ?_, ?_, ?_⟩
    · intro r hr; simp at hr; subst hr; simp [exFitCut, Ex.fitState, FitState.write]
    · intro e he; rw [List.mem_singleton.1 he, hd2]; exact fitAxis_dims
    · intro e he; rw [List.mem_singleton.1 he, hd2]; simp
    · refine .cons ⟨exFitKw, by rw [hd2]; exact exFit_asks, ?_, rfl, ?_⟩ .nil
      · rw [hv]; decide +kernel
      · rw [hv]; decide +kernel
    · intro t ht t' ht'; rw [List.mem_singleton.1 ht, List.mem_singleton.1 ht']; exact ⟨rfl, rfl⟩
  obtain ⟨st', h1, h2, -⟩ := c63_append_partial exFitRoi _ _ exFitCut 1
    (by simp [exFitCut, Ex.fitState, FitState.write]) (by decide +kernel) hS
    (by intro e he; rw [List.mem_singleton.1 he]; decide +kernel)
    (by intro t ht; rw [List.mem_singleton.1 ht, hv]; decide +kernel)
  exact ⟨st', h1, h2⟩

/-- The same spectra, but 2 and 3 share a configuration. -/
noncomputable def exFitShared : FitState :=
  { Ex.fitState with objs := fun r => if r = 3 then { Ex.fitObj 3 with cfg := 2 } else Ex.fitObj r }

/-- **C63, shared configuration, negation.** Two spectra that share a configuration object
(for instance because one was made from the other by copying): the second one is cut with
axes that have already been cut, so its lowest bins are taken instead of those in the
region. In the region 1 to 2 the two spectra, scaled to 20 and 5, have contents 6, 8 and
1, 1/2; the background gets 6 + 2 and 8 + 3/2. -/
theorem c63_shared_negation :
    ((exFitShared.view 2).data.get [2] = 3 ∧ (exFitShared.view 2).data.get [3] = 4 ∧
      (exFitShared.view 3).data.get [2] = 2 ∧ (exFitShared.view 3).data.get [3] = 1 ∧
      (exFitShared.view 2).numDecays = 10 ∧ (exFitShared.view 3).numDecays = 10) ∧
    ((makeFixedBackground exFitRoi true [(2, 20), (3, 5)] exFitShared).2.toOption.map Prod.fst =
      some 5) ∧
    let b := (makeFixedBackground exFitRoi true [(2, 20), (3, 5)] exFitShared).1.view 5
    b.data.shape = [2] ∧ b.data.get [0] = 6 + 2 ∧ b.data.get [1] = 8 + 3 / 2 := by
  refine ⟨by decide +kernel, by decide +kernel, ?_⟩
  decide +kernel

end Verif
