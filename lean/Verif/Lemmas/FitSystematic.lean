import Verif.Lemmas.FitFound
import Verif.Lemmas.FitPreMade
import Verif.Spec.FitSystematic

/-! Helper lemmas about fits with systematic parameters. -/

namespace Verif

open Session

variable {env : FitEnv} {keyOf : ℕ → PyStr} {a : FitArgs} {ts : List Spectrum} {d : ℕ} {st : FitState}
  {rnd : ℝ → ℚ} {g : GridSearch} {vss : List (List ℝ)}

theorem Convolved.alike {vals : List (ℕ × ℚ)} {ps : List ℕ} {s t : Spectrum}
    (h : Convolved env st vals ps s t) : Alike s t := by
  induction h with
  | nil s => exact .refl s
  | cons p v ps s t u hv hc _ ih => exact (convolve_alike (appliedTo_iff.1 hc)).trans ⟨ih.1, ih.2, ih.3⟩

theorem Convolved.transfer {st' : FitState} {vals vals' : List (ℕ × ℚ)} {ps : List ℕ} {s t : Spectrum}
    (h : Convolved env st vals ps s t) (hv : ∀ e ∈ vals, e ∈ vals')
    (hp : ∀ p, st'.params p = { st.params p with name := (st'.params p).name }) :
    Convolved env st' vals' ps s t := by
  induction h with
  | nil s => exact .nil s
  | cons p v ps s t u hm hc _ ih =>
    refine .cons p v ps s t u (hv _ hm) ?_ ih
    rw [hp p]
    exact hc

theorem FitArgs.Systematic.globalPars (hy : a.Systematic st) :
    a.globalPars = a.config.map (fun e => e.2.1) := by
  unfold FitArgs.globalPars
  rw [List.filter_eq_self.2 fun e he => hy.global e he]

theorem FitArgs.Systematic.parameters (hy : a.Systematic st) {par : ℕ → ℕ}
    (hp : ∀ r ∈ a.floating, (st.objs r).fit = some [par r]) :
    a.parameters st = a.globalPars ++ a.floating.map par := by
  unfold FitArgs.parameters FitArgs.ownPars
  rw [hy.globalPars]
  congr 1
  clear hy
  revert hp
  generalize a.floating = l
  intro hp
  induction l with
  | nil => rfl
  | cons r l ih =>
    rw [List.flatMap_cons, hp r List.mem_cons_self, ih fun q hq => hp q (List.mem_cons_of_mem _ hq)]
    rfl

theorem FitArgs.Systematic.number (hy : a.Systematic st) :
    (a.parameters st).length = a.globalPars.length + a.floating.length := by
  have hone : ∀ r, ∃ p, r ∈ a.floating → (st.objs r).fit = some [p] := fun r => by
    by_cases hm : r ∈ a.floating
    · obtain ⟨p, hp⟩ := hy.one r hm
      exact ⟨p, fun _ => hp⟩
    · exact ⟨0, fun h => absurd h hm⟩
  choose par hp using hone
  rw [hy.parameters hp, List.length_append, List.length_map]

theorem zip_append_drop {α β : Type} (l l' : List α) (m : List β) (h : l.length ≤ m.length) :
    (l ++ l').zip m = l.zip m ++ l'.zip (m.drop l.length) := by
  induction l generalizing m with
  | nil => simp
  | cons x l ih =>
    cases m with
    | nil => simp at h
    | cons y m => simp [ih m (by simpa using h)]

theorem LastConvolved.alike {vals : List (ℕ × ℚ)} {ps : List ℕ} {s t : Spectrum}
    (h : LastConvolved env st vals ps s t) : Alike s t := by
  rcases h with ⟨-, rfl⟩ | ⟨i, l, -, -, h⟩
  · exact .refl _
  · exact h.alike

theorem LastConvolved.transfer {st' : FitState} {vals vals' : List (ℕ × ℚ)} {ps : List ℕ}
    {s t : Spectrum} (h : LastConvolved env st vals ps s t) (hv : ∀ e ∈ vals, e ∈ vals')
    (hp : ∀ p, st'.params p = { st.params p with name := (st'.params p).name }) :
    LastConvolved env st' vals' ps s t := by
  rcases h with h | ⟨i, l, h1, h2, h3⟩
  · exact .inl h
  · refine .inr ⟨i, l, h1, fun p hm => ?_, h3.transfer hv hp⟩
    obtain ⟨u, hu⟩ := h2 p hm
    exact ⟨u, hu.transfer hv hp⟩

/-- A convolved spectrum of the fit is projected to what is specified. -/
theorem moved_project (hg : a.Given ts st) (he : a.Evaluable env keyOf d st) {b : Option ℕ}
    {st' : FitState} (h2 : Final a ts st b st') {ns : List PyStr}
    (hns : RoiNames (st.view d).cfg (inOrder a.roi) ns)
    (hl : (st.view d).cfg.length ≤ a.roi.length + 1) {q : ℕ}
    (hq : q ∈ a.floating ++ a.signal.toList) {t u : Spectrum} {x cd : NdArray ℚ}
    (t1 : ShrunkTo (inOrder a.roi) (st.view q) t) (t2 : t.data.norm = t.data) (hal : Alike t u)
    (t4 : IsProjection u ns x) (hcd : RegionContents (inOrder a.roi) ns (st.view d) cd) :
    t = st'.view q ∧ x.shape = cd.shape ∧ ∃ p, u.ndProject ns = .ok p ∧ p.shape = cd.shape ∧
      ∀ idx, InB cd.shape idx → p.get idx = x.get idx := by
  have hreg := inOrder_isDict hg.region
  have hdk : d ∈ a.kept := by simp [FitArgs.kept, he.data]
  have hk : q ∈ a.kept := by
    simp only [FitArgs.kept, List.mem_append] at hq ⊢; tauto
  have hm : q ∈ a.kept ++ a.fixed.map Prod.fst := List.mem_append_left _ hk
  have hsh := h2.shrunk q hk
  have ht : t = st'.view q := by
    have := norm_eq_of_eqv (shrunkTo_unique hreg (hg.able q hm) t1 hsh)
    have e1 : t.norm = t := by
      unfold Spectrum.norm; rw [t2]
    have e2 : (st'.view q).norm = st'.view q := by
      unfold Spectrum.norm FitState.view
      simp
    rw [e1, e2] at this
    exact this
  subst ht
  obtain ⟨q1, q2, q3, q4⟩ := final_axes hg he h2 hq
  have hwf := (hsh.region hreg (hg.able q hm)).2.wf
  have hcfgu : u.cfg.map SPar.name = (st.view d).cfg.map SPar.name := by
    rw [hal.cfg, q1, q4]
  have huw : u.WF := by
    refine ⟨?_, ?_, ?_⟩
    · rw [hal.cfg]; exact hwf.axes
    · rw [hal.cfg]; exact hwf.names
    · rw [hal.cfg, hal.shape]; exact hwf.shape
  obtain ⟨p, p1, p2⟩ := region_project hg hns hl huw hcfgu
  obtain ⟨t', t1', t4'⟩ := hcd
  have hsd : cd.shape = p.shape := by
    have e := shrunkTo_unique hreg (hg.able d (List.mem_append_left _ hdk)) t1' (h2.shrunk d hdk)
    rw [t4'.1, p2.1, hal.shape, hal.cfg, q1, q2, e.1.2.1, e.2.1]
  refine ⟨rfl, by rw [t4.1, ← p2.1, hsd], p, p1, hsd.symm, fun idx hi => ?_⟩
  rw [p2.2 idx (by rw [← hsd]; exact hi), t4.2 idx (by rw [t4.1, ← p2.1, ← hsd]; exact hi)]

/-- What an evaluation with global parameters expects. -/
theorem systematic_run {b : Option ℕ} {ns : List PyStr} {s : FitState}
    (hr : FitReady env (a.read st d b ns) s) (hfl : a.floating ≠ []) {o : NdArray ℚ}
    (hobs : (s.view d).ndProject ns = .ok o) {args : List ℚ}
    (hargs : args.length = (a.parameters st).length) {z : ℕ → NdArray ℚ}
    (hflo : ∀ q ∈ a.floating, (∃ u, Convolved env s ((a.parameters st).zip args) a.globalPars
        (s.view q) u ∧ u.ndProject ns = .ok (z q)) ∧ (z q).shape = o.shape ∧
      (s.objs q).fit = (st.objs q).fit ∧ (s.view q).numDecays = (st.view q).numDecays)
    {fixed : List (NdArray ℚ)}
    (hfix : List.Forall₂ (fun t p => (s.view t).ndProject ns = .ok p ∧ p.shape = o.shape)
      b.toList fixed) {signal : List (NdArray ℚ)}
    (hsig : List.Forall₂ (fun t p => (∃ u, LastConvolved env s ((a.parameters st).zip args) a.globalPars
        (s.view t) u ∧ u.ndProject ns = .ok p) ∧ p.shape = o.shape) a.signal.toList signal)
    (rate : ℕ → ℚ)
    (hrate : ∀ q ∈ a.floating, ∃ p, (st.objs q).fit = some [p] ∧
      (p, rate q) ∈ (a.parameters st).zip args) :
    ∃ e, evaluatedContents env (a.read st d b ns) args s = .ok (o, some e) ∧
      e.shape = o.shape ∧ ∀ idx, InB o.shape idx → e.get idx =
        (fixed.map (fun p => p.get idx)).sum +
        (a.floating.map (fun q => rate q / (st.view q).numDecays * (z q).get idx)).sum +
        (signal.map (fun p => p.get idx)).sum := by
  have f1 : List.Forall₂ (fun b p => (s.view b.1).ndProject b.2 = .ok p)
      (a.read st d b ns).fixed.toList fixed := by
    show List.Forall₂ _ (b.map (fun r => (r, ns))).toList _
    cases b with
    | none => cases hfix; exact .nil
    | some t =>
      cases hfix with
      | cons h1 h2 => cases h2; exact .cons h1.1 .nil
  have hu : ∀ q, ∃ u, q ∈ a.floating → Convolved env s ((a.parameters st).zip args) a.globalPars
      (s.view q) u ∧ u.ndProject ns = .ok (z q) := fun q => by
    by_cases hq : q ∈ a.floating
    · obtain ⟨u, h⟩ := (hflo q hq).1
      exact ⟨u, fun _ => h⟩
    · exact ⟨s.view q, fun h => absurd h hq⟩
  choose w hw using hu
  have hx : List.Forall₂ (IsBgTerm env (a.read st d b ns) s args)
      (a.floating.map (fun r => (r, ns)))
      (a.floating.map (fun q => (⟨w q, rate q, z q⟩ : BgTerm))) := by
    rw [List.forall₂_map_left_iff, List.forall₂_map_right_iff, List.forall₂_same]
    intro q hm
    refine ⟨(hw q hm).1, ?_, (hw q hm).2⟩
    obtain ⟨p, p1, p2⟩ := hrate q hm
    exact ⟨p, (hflo q hm).2.2.1.trans p1, p2⟩
  have hs : List.Forall₂ (IsSignalTerm env (a.read st d b ns) s args)
      (a.read st d b ns).signal.toList signal := by
    show List.Forall₂ _ (a.signal.map (fun r => (r, ns))).toList _
    cases hs : a.signal with
    | none => rw [hs] at hsig; cases hsig; exact .nil
    | some r =>
      rw [hs] at hsig
      cases hsig with
      | cons h1 h2 =>
        cases h2
        obtain ⟨⟨u, u1, u2⟩, -⟩ := h1
        exact .cons ⟨u, u1, u2⟩ .nil
  obtain ⟨e, e1, e2, e3⟩ := c91_expected_partial env (a.read st d b ns) s hr [] (by simp) args hargs rfl
    hobs f1 hx hs (sh := o.shape) (by
      intro p hp
      rcases List.mem_append.1 hp with hp | hp
      · rcases List.mem_append.1 hp with hp | hp
        · obtain ⟨t, -, h⟩ := forall₂_mem_left hfix.flip hp
          exact h.2
        · obtain ⟨x, hx, rfl⟩ := List.mem_map.1 hp
          obtain ⟨q, hq, rfl⟩ := List.mem_map.1 hx
          exact (hflo q hq).2.1
      · obtain ⟨t, -, h⟩ := forall₂_mem_left hsig.flip hp
        exact h.2)
    (.inr (by simpa using hfl))
  refine ⟨e, e1, e2, fun idx hi => ?_⟩
  rw [e3 idx hi]
  congr 2
  rw [List.zipWith_map_left, List.zipWith_map_right, List.zipWith_self]
  congr 1
  refine List.map_congr_left fun q hq => ?_
  rw [(hflo q hq).2.2.2]

/-- A fit with systematic parameters made from its arguments: what it evaluates. -/
theorem systematic_evaluated (hg : a.Given ts st) (he : a.Evaluable env keyOf d st)
    (hs : a.Settings st) (hy : a.Systematic st) (hl : (st.view d).cfg.length ≤ a.roi.length + 1)
    {ns : List PyStr} (hns : RoiNames (st.view d).cfg (inOrder a.roi) ns) {c : ℕ → NdArray ℚ}
    (hc : ∀ r ∈ d :: a.fixed.map Prod.fst, RegionContents (inOrder a.roi) ns (st.view r) (c r)) :
    ∃ ses st' f, init keyOf a st = (st', .ok ses) ∧
      (∀ (ρ : Type) (mini : Fit → FitM ρ), (ses.fit mini st').2 = (mini f st').2.map .inr) ∧
      FitReady env f st' ∧ f.pars = a.parameters st ∧ f.stat = a.stat ∧
      f.statPerBin = a.statPerBin ∧ f.perBin = a.perBin ∧ f.singleBin = a.singleBin ∧
      f.floating ≠ none ∧
      (∀ p, st'.params p = { st.params p with name := (st'.params p).name }) ∧
      ∀ args, args.length = (a.parameters st).length → ∀ x : ℕ → NdArray ℚ,
        (∀ r ∈ a.floating, SystematicContents env st (inOrder a.roi) ns a.globalPars
          (a.globalPars.zip args) (st.view r) (x r)) →
        (∀ r ∈ a.signal.toList, LastContents env st (inOrder a.roi) ns a.globalPars
          (a.globalPars.zip args) (st.view r) (x r)) →
        ∃ obs e, evaluatedContents env f args st' = .ok (obs, some e) ∧ e.shape = obs.shape ∧
          comparedContents a.singleBin obs = comparedContents a.singleBin (c d) ∧
          comparedContents a.singleBin e = comparedContents a.singleBin
            (a.systematicAt st c x (c d).shape (args.drop a.globalPars.length)) := by
  have hreg := inOrder_isDict hg.region
  have hfl := hy.floating
  have hdk : d ∈ a.kept := by simp [FitArgs.kept, he.data]
  obtain ⟨ses, st', b, n', h1, h2, h3, h4, h5, h6, h7, h8⟩ := whole_run hg he hfl
  obtain ⟨ses₂, st₂, n2, i1, i2, i3⟩ := c137_fit_partial hg he hfl hs
  rw [h1] at i1
  cases i1
  have hdims := (hg.able d (List.mem_append_left _ hdk)).dims
  obtain rfl : n' = ns := roiNames_unique hdims hns h4
  obtain rfl : n2 = n' := roiNames_unique hdims h4 i2
  have hready := read_ready (b := b) (ns := n2) hg he h2 h3
  have hmk : ∀ r ∈ a.floating ++ a.signal.toList, r ∈ a.kept := fun r hr => by
    simp only [FitArgs.kept, List.mem_append] at hr ⊢; tauto
  have hlt : ∀ r ∈ a.kept, r < st.next := hg.alloc
  have hcfg : ∀ r ∈ a.kept ++ a.fixed.map Prod.fst, (st.view r).cfg = (st.view d).cfg := by
    intro r hr
    by_cases hrd : r = d
    · rw [hrd]
    · refine he.axes r ?_
      simp only [FitArgs.kept, he.data, List.mem_append, Option.toList_some, List.mem_singleton] at hr ⊢
      tauto
  obtain ⟨c', hc'⟩ := region_run hg he.data hcfg h2 h4 hl
  have hcd' := hc' d (List.mem_append_left _ hdk)
  have hcc : ∀ r ∈ d :: a.fixed.map Prod.fst, (c' r).shape = (c r).shape ∧
      ∀ idx, InB (c r).shape idx → (c' r).get idx = (c r).get idx := fun r hm => by
    have hm' : r ∈ a.kept ++ a.fixed.map Prod.fst := by
      rcases List.mem_cons.1 hm with rfl | hm
      · exact List.mem_append_left _ hdk
      · exact List.mem_append_right _ hm
    exact regionContents_unique hreg (hg.able r hm') (hc r hm) (hc' r hm').1
  have hcd := hcc d List.mem_cons_self
  have hpar := h3.params
  -- the rates
  have hone : ∀ r, ∃ p, r ∈ a.floating → (st.objs r).fit = some [p] := fun r => by
    by_cases hm : r ∈ a.floating
    · obtain ⟨p, hp⟩ := hy.one r hm
      exact ⟨p, fun _ => hp⟩
    · exact ⟨0, fun h => absurd h hm⟩
  choose par hp using hone
  have hpars := hy.parameters hp
  have hfn : a.floating.Nodup := by
    have := he.pars
    rw [hpars] at this
    exact (this.of_append_right).of_map _
  -- the fixed background
  obtain ⟨fixed, f1, f2⟩ : ∃ fixed : List (NdArray ℚ),
      List.Forall₂ (fun t p => (st'.view t).ndProject n2 = .ok p ∧ p.shape = (c' d).shape)
        b.toList fixed ∧
      ∀ idx, InB (c' d).shape idx → (fixed.map (fun p => p.get idx)).sum =
        (a.fixed.map (fun x => x.2 / (st.view x.1).numDecays * (c' x.1).get idx)).sum := by
    cases hb : b with
    | none =>
      refine ⟨[], .nil, fun idx _ => ?_⟩
      rw [h6.1 hb]; rfl
    | some t =>
      have hne : a.fixed ≠ [] := fun hn => by rw [h6.2 hn] at hb; cases hb
      obtain ⟨p, k1, k2, k3⟩ := fixed_run hg hne hcfg h4 hl (h2.total t hb) hc'
      exact ⟨[p], .cons ⟨k1, k2⟩ .nil, fun idx hi => by
        rw [List.map_singleton, List.sum_singleton, k3 idx hi]⟩
  rw [h7] at i3
  refine ⟨ses, st', a.read st d b n2, h1, fun ρ mini => by rw [i3], hready, rfl, rfl, rfl, rfl,
    rfl, (fun h => by cases h), hpar, fun args hargs x hx hxs => ?_⟩
  have hgl : a.globalPars.length ≤ args.length := by
    rw [hargs, hpars, List.length_append]; omega
  have hsub : ∀ e ∈ a.globalPars.zip args, e ∈ (a.parameters st).zip args := fun e hm => by
    rw [hpars, zip_append_drop _ _ _ hgl]; exact List.mem_append_left _ hm
  -- what floating backgrounds and signal become
  have hmove : ∀ r, ∃ u p, r ∈ a.floating →
      Convolved env st' ((a.parameters st).zip args) a.globalPars (st'.view r) u ∧
      u.ndProject n2 = .ok p ∧ p.shape = (c' d).shape ∧
      ∀ idx, InB (c' d).shape idx → p.get idx = (x r).get idx := by
    intro r
    by_cases hr : r ∈ a.floating
    swap
    · exact ⟨st.view r, ⟨[], fun _ => 0⟩, fun h => absurd h hr⟩
    obtain ⟨t, u, t1, t2, t3, t4⟩ := hx r hr
    obtain ⟨rfl, -, p, p1, p2, p3⟩ := moved_project hg he h2 h4 hl (List.mem_append_left _ hr) t1 t2
      t3.alike t4 hcd'.1
    exact ⟨u, p, fun _ => ⟨t3.transfer hsub hpar, p1, p2, p3⟩⟩
  choose w z hz using hmove
  have hsmove : ∀ r, ∃ u p, r ∈ a.signal.toList →
      LastConvolved env st' ((a.parameters st).zip args) a.globalPars (st'.view r) u ∧
      u.ndProject n2 = .ok p ∧ p.shape = (c' d).shape ∧
      ∀ idx, InB (c' d).shape idx → p.get idx = (x r).get idx := by
    intro r
    by_cases hr : r ∈ a.signal.toList
    swap
    · exact ⟨st.view r, ⟨[], fun _ => 0⟩, fun h => absurd h hr⟩
    obtain ⟨t, u, t1, t2, t3, t4⟩ := hxs r hr
    obtain ⟨rfl, -, p, p1, p2, p3⟩ := moved_project hg he h2 h4 hl (List.mem_append_right _ hr) t1 t2
      t3.alike t4 hcd'.1
    exact ⟨u, p, fun _ => ⟨t3.transfer hsub hpar, p1, p2, p3⟩⟩
  choose w' z' hz' using hsmove
  obtain ⟨rate, hrate⟩ := exists_map_eq (l := a.floating) (m := args.drop a.globalPars.length) hfn (by
    rw [List.length_drop, hargs, hpars, List.length_append, List.length_map]; omega)
  obtain ⟨e, e1, e2, e3⟩ := systematic_run (z := z) (signal := a.signal.toList.map z') hready hfl
    (hcd'.2.1 hdk) hargs
    (fun r hm => ⟨⟨w r, (hz r hm).1, (hz r hm).2.1⟩, (hz r hm).2.2.1,
      h3.fit r (hlt r (hmk r (List.mem_append_left _ hm))),
      (final_axes hg he h2 (List.mem_append_left _ hm)).2.2.1⟩)
    f1 (by
      rw [List.forall₂_map_right_iff, List.forall₂_same]
      exact fun r hm => ⟨⟨w' r, (hz' r hm).1, (hz' r hm).2.1⟩, (hz' r hm).2.2.1⟩) rate
    (fun r hm => by
      refine ⟨par r, hp r hm, ?_⟩
      rw [hpars, zip_append_drop _ _ _ hgl, ← hrate, List.zip_map']
      exact List.mem_append_right _ (List.mem_map.2 ⟨r, hm, rfl⟩))
  refine ⟨c' d, e, e1, e2, compared_congr _ hcd.1 hcd.2,
    compared_congr _ (e2.trans hcd.1) fun idx hi => ?_⟩
  have hi : InB (c d).shape idx := hi
  have hi' : InB (c' d).shape idx := by rw [hcd.1]; exact hi
  rw [e3 idx hi', f2 idx hi']
  unfold FitArgs.systematicAt
  dsimp only
  rw [← hrate, List.zipWith_map_right, List.zipWith_self, List.map_map]
  congr 1
  · congr 1
    · congr 1
      refine List.map_congr_left fun y hy => ?_
      have hm := List.mem_map_of_mem (f := Prod.fst) hy
      have hs := (hc' y.1 (List.mem_append_right _ hm)).2.2
      have k := hcc y.1 (List.mem_cons_of_mem _ hm)
      rw [k.2 idx (by rw [← k.1, hs]; exact hi')]
    · congr 1
      refine List.map_congr_left fun r hm => ?_
      rw [(hz r hm).2.2.2 idx hi']
  · congr 1
    refine List.map_congr_left fun r hm => ?_
    exact (hz' r hm).2.2.2 idx hi'

end Verif
