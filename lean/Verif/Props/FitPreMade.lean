import Verif.Lemmas.FitPreMadeHist
import Verif.Lemmas.Scripts
import Verif.Props.PreConvolved
import Verif.Props.FitExpected

/-!
# C150: fits with pre-made spectra

What such a fit expects, that it does not depend on earlier evaluations, that it agrees with the
fit that convolves its spectra itself, and which files are loaded.
-/

namespace Verif

open Spectrum

/-! ### evaluations -/

/-- **C150, expected contents.** At any point of any sequence of evaluations with nonzero rates, the
expected contents are the sum of the fixed background, the pre-made spectrum of each floating
background for these values of the global parameters (cut to the data and projected) scaled from its
number of decays to the value of the rate, and the pre-made spectrum of the signal scaled to the
number of decays of the signal. (Partial: background names are different, texts of values are
different, every background has one rate; see the negations of C62.) -/
theorem c150_expected_partial (env : FitEnv) (pm : PreMade) (f : Fit) (st : FitState)
    (hr : PreMadeReady env pm f st)
    (hist : List (List ℚ)) (hh : ∀ a ∈ hist, FullArgs f a ∧ NonzeroRates f st a)
    (args : List ℚ) (hl : FullArgs f args)
    {fl : List (ℕ × List PyStr)} (hf : f.floating = some fl)
    {obs : NdArray ℚ} (hobs : (st.view f.data).ndProject f.dataPars = .ok obs)
    {fixed : List (NdArray ℚ)}
    (hfix : List.Forall₂ (fun b p => (st.view b.1).ndProject b.2 = .ok p) f.fixed.toList fixed)
    {xs : List (ℚ × PreTerm)}
    (hx : List.Forall₂ (fun b x => IsPreTerm env pm f st args b x.2 ∧
      ∃ p, (st.objs b.1).fit = some [p] ∧ (p, x.1) ∈ f.pars.zip args) fl xs)
    {ys : List PreTerm}
    (hsig : List.Forall₂ (IsPreTerm env pm f st args) f.signal.toList ys)
    {sh : List ℕ} (hshf : ∀ p ∈ fixed, p.shape = sh) (hshx : ∀ x ∈ xs, x.2.proj.shape = sh)
    (hshs : ∀ y ∈ ys, y.proj.shape = sh) (hne : f.fixed ≠ none ∨ fl ≠ []) :
    ∃ e, preMadeEvaluated env pm f args (afterPreMade env pm f hist (st, fun _ => none)) =
        .ok (obs, some e) ∧
      e.shape = sh ∧ ∀ idx, InB sh idx →
        e.get idx = (fixed.map (fun p => p.get idx)).sum +
          (xs.map (fun x => x.1 / x.2.decays * x.2.proj.get idx)).sum +
          (List.zipWith (fun b y => (st.view b.1).numDecays / y.decays * y.proj.get idx)
            f.signal.toList ys).sum := by
  rw [preMadeEvaluated_value hr (preState_after hr hh preState_start) hf hl]
  have hfl : f.floatingRefs = fl.map Prod.fst := by simp [Fit.floatingRefs, hf]
  -- the fixed background
  obtain ⟨e0, he0, hs0, hn0⟩ : ∃ e0, fixedValue f st = .ok e0 ∧
      Sums sh e0 (fixed.map (fun p idx => p.get idx)) ∧ (f.fixed ≠ none → e0 ≠ none) := by
    unfold fixedValue
    cases hb : f.fixed with
    | none =>
      rw [hb] at hfix
      cases hfix
      exact ⟨none, rfl, rfl, fun h => absurd rfl h⟩
    | some b =>
      rw [hb] at hfix
      cases hfix with
      | cons h1 h2 =>
        cases h2
        rename_i p
        refine ⟨some p, by simp only [h1]; rfl, ⟨hshf p (by simp), ?_⟩, fun _ h => by cases h⟩
        intro idx _; simp
  -- the floating backgrounds
  obtain ⟨e1, he1, hs1, hn1, hn1'⟩ := preLoop_of hr hx
    (fun b hb => by rw [hfl]; exact List.mem_map_of_mem hb) hshx hs0
  have hne1 : e1 ≠ none := hne.elim (fun h => hn1' (hn0 h)) hn1
  -- the signal
  obtain ⟨e2, he2, hs2⟩ : ∃ e2, preSignalV env pm f st (withValues f.pars args st.params) e1 =
      .ok (some e2) ∧ Sums sh (some e2) ((fixed.map (fun p idx => p.get idx) ++
        xs.map (fun x idx => x.1 / x.2.decays * x.2.proj.get idx)) ++
        List.zipWith (fun b y idx => (st.view b.1).numDecays / y.decays * y.proj.get idx)
          f.signal.toList ys) := by
    obtain ⟨a, rfl⟩ := Option.ne_none_iff_exists'.1 hne1
    cases hb : f.signal with
    | none =>
      rw [hb] at hsig
      cases hsig
      unfold preSignalV
      rw [hb]
      exact ⟨a, rfl, by simpa using hs1⟩
    | some b =>
      rw [hb] at hsig
      cases hsig with
      | cons h1 h2 =>
        cases h2
        rename_i y
        obtain ⟨a', ha, hs⟩ := preSignalV_of hr hb h1 (hshs y (by simp)) hs1
        exact ⟨a', ha, hs⟩
  refine ⟨e2, ?_, hs2.1, fun idx hi => ?_⟩
  · unfold preContentsV
    rw [hobs, okBind, he0, okBind, he1, okBind, he2]
    rfl
  · rw [hs2.2 idx hi]
    simp only [List.map_append, List.map_map, List.sum_append, List.map_zipWith]
    rfl

/-- **C150, earlier evaluations.** After any sequence of evaluations with nonzero rates, an
evaluation has the same result as on the fresh fit, and the spectra of the fit are what they
were. -/
theorem c150_history_partial (env : FitEnv) (pm : PreMade) (f : Fit) (st : FitState)
    (hr : PreMadeReady env pm f st)
    (hist : List (List ℚ)) (hh : ∀ a ∈ hist, FullArgs f a ∧ NonzeroRates f st a)
    (args : List ℚ) (hl : FullArgs f args) :
    (preMadeFunct env pm f args (afterPreMade env pm f hist (st, fun _ => none))).2 =
        (preMadeFunct env pm f args (st, fun _ => none)).2 ∧
      ∀ r, (preMadeFunct env pm f args (afterPreMade env pm f hist (st, fun _ => none))).1.1.view r =
        st.view r := by
  have hs := preState_after hr hh (preState_start (env := env) (pm := pm) (f := f))
  cases hf : f.floating with
  | none =>
    have e : ∀ w, preMadeFunct env pm f args w = (w, .error .valueError) := by
      intro w; unfold preMadeFunct; rw [hf]
    rw [e, e]
    refine ⟨rfl, fun r => ?_⟩
    rw [hs.objects]
    rfl
  | some fl =>
    obtain ⟨_, -, e1⟩ := preMadeFunct_run hr hs hf hl
    obtain ⟨_, -, e2⟩ := preMadeFunct_run hr preState_start hf hl
    rw [e1, e2]
    exact ⟨rfl, fun r => rfl⟩

/-! ### agreement with convolving -/

theorem preTerm_of_holds {env : FitEnv} {pm : PreMade} {f : Fit} {st : FitState} {args : List ℚ}
    (hp : PreMadeReady env pm f st) {b : ℕ × List PyStr} {t : Spectrum}
    (ht : OnDataAxes (st.view f.data) t)
    {p : NdArray ℚ} (hproj : t.ndProject b.2 = .ok p)
    (h : HoldsScaled env pm f st args b.1 t) :
    ∃ y, IsPreTerm env pm f st args b y ∧ y.decays ≠ 0 ∧ y.proj.shape = p.shape ∧
      ∀ idx, InB p.shape idx → y.proj.get idx = y.decays / t.numDecays * p.get idx := by
  obtain ⟨ps, file, s, h1, h2, h3, h4, h5, h6, h7⟩ := h
  have hF := hp.files file s h3
  obtain ⟨u, hu1, hu2⟩ := hF.cut
  have hs : OnDataAxes (st.view f.data) s := onDataAxes_alike ht h5 h6
  have hus : u = s :=
    Except.ok.inj ((cuts_of hu1 hF.dims hu2).value.symm.trans (cuts_self hs hF.norm).value)
  subst hus
  obtain ⟨q, hq, hqt⟩ := ndProject_times (s := t) (t := u) h5 ⟨h6, h7⟩ hproj
  exact ⟨⟨pm.decays b.1 u, q⟩, ⟨ps, file, u, u, h1, h2, h3, rfl, h4, hu1, hq⟩, h4, hqt.1, hqt.2⟩

/-- **C150, pre-made or not.** If the files hold what applying the global parameters gives (with any
number of decays), the fit with pre-made spectra expects in every bin what the fit expects that
convolves its spectra itself, whatever has been evaluated before. (Partial: as C91; for several
global parameters the file of the signal would have to hold the signal with only the last one
applied.) -/
theorem c150_same_as_convolving_partial (env : FitEnv) (pm : PreMade) (f : Fit) (st : FitState)
    (hr : FitReady env f st) (hp : PreMadeReady env pm f st)
    (hist hist' : List (List ℚ)) (hh : ∀ a ∈ hist ++ hist', FullArgs f a ∧ NonzeroRates f st a)
    (args : List ℚ) (hl : FullArgs f args)
    {fl : List (ℕ × List PyStr)} (hf : f.floating = some fl)
    {obs : NdArray ℚ} (hobs : (st.view f.data).ndProject f.dataPars = .ok obs)
    {fixed : List (NdArray ℚ)}
    (hfix : List.Forall₂ (fun b p => (st.view b.1).ndProject b.2 = .ok p) f.fixed.toList fixed)
    {xs : List BgTerm}
    (hx : List.Forall₂ (fun b x => IsBgTerm env f st args b x ∧
      HoldsScaled env pm f st args b.1 x.spectrum) fl xs)
    {signal : List (NdArray ℚ)}
    (hsig : List.Forall₂ (fun b p => ∃ t, LastConvolved env st (f.pars.zip args) f.globals
        (st.view b.1) t ∧ t.ndProject b.2 = .ok p ∧ HoldsScaled env pm f st args b.1 t)
      f.signal.toList signal)
    {sh : List ℕ} (hsh : ∀ p ∈ fixed ++ xs.map BgTerm.proj ++ signal, p.shape = sh)
    (hne : f.fixed ≠ none ∨ fl ≠ []) :
    ∃ e e', evaluatedContents env f args (afterEvaluations env f hist st) = .ok (obs, some e) ∧
      preMadeEvaluated env pm f args (afterPreMade env pm f hist' (st, fun _ => none)) =
        .ok (obs, some e') ∧
      e.shape = sh ∧ e'.shape = sh ∧ ∀ idx, InB sh idx → e'.get idx = e.get idx := by
  obtain ⟨e, he, hes, heg⟩ := c91_expected_partial env f st hr hist
    (fun a ha => hh a (List.mem_append_left _ ha)) args hl hf hobs hfix
    (hx.imp fun _ _ h => h.1)
    (hsig.imp fun _ _ h => by obtain ⟨t, h1, h2, -⟩ := h; exact ⟨t, h1, h2⟩) hsh hne
  have hfl : f.floatingRefs = fl.map Prod.fst := by simp [Fit.floatingRefs, hf]
  -- the backgrounds
  obtain ⟨ys, hy1, hy2⟩ : ∃ ys : List (ℚ × PreTerm),
      List.Forall₂ (fun b x => IsPreTerm env pm f st args b x.2 ∧
        ∃ p, (st.objs b.1).fit = some [p] ∧ (p, x.1) ∈ f.pars.zip args) fl ys ∧
      (∀ y ∈ ys, y.2.proj.shape = sh) ∧ ∀ idx, InB sh idx →
        ys.map (fun y => y.1 / y.2.decays * y.2.proj.get idx) =
        List.zipWith (fun b x => x.rate / (st.view b.1).numDecays * x.proj.get idx) fl xs := by
    have hxs : ∀ x ∈ xs, x.proj.shape = sh := fun x hx => hsh x.proj (by
      simp only [List.mem_append, List.mem_map]; exact .inl (.inr ⟨x, hx, rfl⟩))
    have hmem : ∀ b ∈ fl, b.1 ∈ f.floatingRefs := fun b hb => by
      rw [hfl]; exact List.mem_map_of_mem hb
    clear * - hx hxs hmem hr hp
    induction hx with
    | nil => exact ⟨[], .nil, by simp, by simp⟩
    | @cons b x l xs hbx _ ih =>
      obtain ⟨ys, i1, i2, i3⟩ := ih (fun x hx => hxs x (by simp [hx])) (fun b hb => hmem b (by simp [hb]))
      have hb := hmem b (by simp)
      have hmv : b.1 ∈ f.moving := by simp [Fit.moving, hb]
      have hconv : convFrom env f st b.1 (withValues f.pars args st.params) = .ok x.spectrum := by
        unfold convFrom
        rw [isBg_floating hr hb]
        exact convFold_of hr.pars hbx.1.conv _
      have hal := (convFold_alike hconv (.refl _) (FitState.view_data_norm _ _)).1
      obtain ⟨y, y1, y2, y3, y4⟩ := preTerm_of_holds hp
        (onDataAxes_alike (hr.axes _ hmv) hal.cfg hal.shape) hbx.1.proj hbx.2
      have hxp := hxs x (by simp)
      refine ⟨(x.rate, y) :: ys, .cons ⟨y1, hbx.1.rate⟩ i1, ?_, ?_⟩
      · intro z hz
        rcases List.mem_cons.1 hz with rfl | hz
        · exact y3.trans hxp
        · exact i2 z hz
      · intro idx hi
        rw [List.map_cons, List.zipWith_cons_cons, i3 idx hi, y4 idx (by rw [hxp]; exact hi),
          hal.numDecays]
        congr 1
        have := hr.decays _ hmv
        field_simp
  -- the signal
  obtain ⟨zs, hz1, hz2, hz3⟩ : ∃ zs : List PreTerm,
      List.Forall₂ (IsPreTerm env pm f st args) f.signal.toList zs ∧
      (∀ z ∈ zs, z.proj.shape = sh) ∧ ∀ idx, InB sh idx →
        List.zipWith (fun b y => (st.view b.1).numDecays / y.decays * y.proj.get idx)
            f.signal.toList zs = signal.map (fun p => p.get idx) := by
    cases hb : f.signal with
    | none =>
      rw [hb] at hsig
      cases hsig
      exact ⟨[], .nil, by simp, by simp⟩
    | some b =>
      rw [hb] at hsig
      cases hsig with
      | cons h1 h2 =>
        cases h2
        rename_i p
        obtain ⟨t, h1, h2, h3⟩ := h1
        have hmv : b.1 ∈ f.moving := by simp [Fit.moving, hb]
        have hps : p.shape = sh := hsh p (by simp)
        have hc : convFrom env f st b.1 (withValues f.pars args st.params) = .ok t := by
          unfold convFrom
          rw [isBg_signal hb]
          exact convFold_last hr.pars h1
        have hal := (convFold_alike hc (.refl _) (FitState.view_data_norm _ _)).1
        obtain ⟨y, y1, y2, y3, y4⟩ := preTerm_of_holds hp
          (onDataAxes_alike (hr.axes _ hmv) hal.cfg hal.shape) h2 h3
        refine ⟨[y], .cons y1 .nil, ?_, ?_⟩
        · intro z hz
          rw [List.mem_singleton.1 hz]
          exact y3.trans hps
        · intro idx hi
          simp only [Option.toList_some, List.zipWith_cons_cons, List.zipWith_nil_left, List.map_cons,
            List.map_nil]
          rw [y4 idx (by rw [hps]; exact hi), hal.numDecays]
          congr 1
          have := hr.decays _ hmv
          field_simp
  obtain ⟨e', he', hes', heg'⟩ := c150_expected_partial env pm f st hp hist'
    (fun a ha => hh a (List.mem_append_right _ ha)) args hl hf hobs hfix hy1 hz1
    (fun p h => hsh p (by simp [h])) hy2.1 hz2 hne
  refine ⟨e, e', he, he', hes, hes', fun idx hi => ?_⟩
  rw [heg idx hi, heg' idx hi, hy2.2 idx hi, hz3 idx hi]

/-! ### the files -/

/-- The parameter as the one of `Model/PreConvolved`. -/
noncomputable def Param.asFitPar (p : Param) : FitPar :=
  { FitPar.new p.name p.prior (p.sigma) 0 0 1 p.dimension with
    current := p.value.map (fun v : ℚ => (v : ℝ)) }

theorem preMadeStep_eq (str : ℚ → PyStr) (path : PyStr × PyStr) (p : Param) :
    preMadeStep str path p = preStepPar (Function.extend (fun q : ℚ => (q : ℝ)) str fun _ => [])
      path (p.kind, p.asFitPar) := by
  have hstr : ∀ v : ℚ, Function.extend (fun q : ℚ => (q : ℝ)) str (fun _ => []) (v : ℝ) = str v :=
    fun v => Function.Injective.extend_apply (fun a b h => by exact_mod_cast h) _ _ v
  have key : ∀ d fn b, p.preConvolved str d fn b =
      getPreConvolved (Function.extend (fun q : ℚ => (q : ℝ)) str fun _ => []) p.kind p.asFitPar
        d fn b := by
    intro d fn b
    unfold Param.preConvolved getPreConvolved
    show _ = (match p.kind, p.value.map (fun v : ℚ => (v : ℝ)) with
      | .rate, _ => _
      | _, none => _
      | k, some v => _)
    cases p.kind with
    | rate => rfl
    | resolution =>
      cases p.value with
      | none => rfl
      | some v =>
        simp only [Option.map_some, preKind, hstr]
        have : ((10 : ℝ) < (v : ℝ)) ↔ 10 < v := by exact_mod_cast Iff.rfl
        simp only [this]
        congr 2
    | scale =>
      cases p.value with
      | none => rfl
      | some v => simp only [Option.map_some, preKind, hstr]; rfl
    | shift =>
      cases p.value with
      | none => rfl
      | some v => simp only [Option.map_some, preKind, hstr]; rfl
  unfold preMadeStep preStepPar
  show _ = (match p.dimension with
    | none => _
    | some dim => _)
  cases p.dimension with
  | none => rfl
  | some dim =>
    dsimp only
    rw [key, key]

theorem preMadeFile_from {str : ℚ → PyStr} {pm : PreMade} {r : ℕ} {ps : List Param}
    {xs : List (PyStr × PyStr)} {dim location : PyStr} (hdim : '/' ∉ dim) (hdne : dim ≠ [])
    (hx : List.Forall₂ (FolderAndTag str dim) ps xs) (hne : ps ≠ [])
    (hfold : (xs.map Prod.fst).Nodup) (hdf : dim ∉ xs.map Prod.fst)
    {pre parts : List PyStr} (hloc : pm.location r = some location)
    (hstart : pm.startDir location = folders pre) (hbase : baseName location = fileName parts)
    (hpre : ∀ a ∈ pre, '/' ∉ a) (hfree : ¬ dim <:+: folders pre)
    (hpn : parts ≠ []) (hp : ∀ c ∈ parts, Part c)
    (hend : ∀ c ∈ parts, ∀ ext ∈ [lit "ly", lit "rs", lit "sc", lit "sh"], ¬ ext <:+ c) :
    preMadeFile str pm r ps =
      .ok (folders (pre ++ dim :: xs.map Prod.fst) ++ fileName (parts ++ xs.map Prod.snd)) := by
  have hstr : ∀ v : ℚ, Function.extend (fun q : ℚ => (q : ℝ)) str (fun _ => []) (v : ℝ) = str v :=
    fun v => Function.Injective.extend_apply (fun a b h => by exact_mod_cast h) _ _ v
  -- the steps
  obtain ⟨steps, h1, h2, h3, h4⟩ : ∃ steps : List Step,
      steps.map (fun s => (s.kind, s.par)) = ps.map (fun p => (p.kind, p.asFitPar)) ∧
      steps.map (·.folder) = xs.map Prod.fst ∧ steps.map (·.tag) = xs.map Prod.snd ∧
      ∀ s ∈ steps, s.Ok (Function.extend (fun q : ℚ => (q : ℝ)) str fun _ => []) dim := by
    clear * - hx hstr
    induction hx with
    | nil => exact ⟨[], rfl, rfl, rfl, by simp⟩
    | @cons p x ps xs hpx _ ih =>
      obtain ⟨steps, i1, i2, i3, i4⟩ := ih
      obtain ⟨hd, v, ext, w, hv, ht, hw, htag⟩ := hpx
      refine ⟨⟨p.kind, p.asFitPar, x.1, x.2⟩ :: steps, ?_, ?_, ?_, ?_⟩
      · rw [List.map_cons, List.map_cons, i1]
      · rw [List.map_cons, List.map_cons, i2]
      · rw [List.map_cons, List.map_cons, i3]
      · intro s hs
        rcases List.mem_cons.1 hs with rfl | hs
        · refine ⟨hd, (v : ℝ), ext, w, ht, ?_, ?_, htag⟩
          · show p.value.map _ = _
            rw [hv]
            rfl
          · rw [hstr]; exact hw
        · exact i4 s hs
  have hsne : steps ≠ [] := by
    rintro rfl
    apply hne
    simpa using h1.symm
  have hall := c61_several_partial (Function.extend (fun q : ℚ => (q : ℝ)) str fun _ => []) dim hdim
    hdne pre hpre hfree steps hsne h4 (by rw [h2]; exact hfold)
    (fun s hs he => hdf (by rw [← h2, ← he]; exact List.mem_map_of_mem hs)) parts hpn hp hend
  rw [h1, h2, h3] at hall
  unfold prePath at hall
  rw [List.foldlM_map] at hall
  unfold preMadeFile
  rw [hloc]
  dsimp only
  rw [hstart, hbase]
  have : preMadeStep str = fun path p => preStepPar
      (Function.extend (fun q : ℚ => (q : ℝ)) str fun _ => []) path (p.kind, p.asFitPar) := by
    funext path p
    exact preMadeStep_eq str path p
  rw [this, hall]
  rfl

theorem fileName_slash {parts : List PyStr} (h : ∀ c ∈ parts, '/' ∉ c) : '/' ∉ fileName parts := by
  unfold fileName
  rw [List.mem_append]
  rintro (hm | hm)
  · induction parts with
    | nil => simp at hm
    | cons a l ih =>
      cases l with
      | nil => exact h a (by simp) (by simpa using hm)
      | cons b l =>
        rw [List.intercalate_cons_cons] at hm
        simp only [List.append_assoc, List.mem_append, List.mem_singleton] at hm
        rcases hm with hm | hm | hm
        · exact h a (by simp) hm
        · exact absurd hm (by decide)
        · exact ih (fun c hc => h c (by simp [hc])) hm
  · exact absurd hm (by decide)

/-- **C150, files.** With global parameters of one dimension and of different kinds, the file that is
loaded for a spectrum has the name of the file of the spectrum with one tag per parameter added, in
order. It is in the folder of the dimension with one folder per parameter, in order, below the base
directory of the fit if it has one, and else below the directory of the file of the spectrum.
(Partial: the directory does not contain the name of the dimension and ends with a slash, the name
of the file has no such tags; see the negations here and of C61.) -/
theorem c150_file_partial (str : ℚ → PyStr) (pm : PreMade) (r : ℕ) (ps : List Param)
    (xs : List (PyStr × PyStr)) (dim : PyStr) (hdim : '/' ∉ dim) (hdne : dim ≠ [])
    (hx : List.Forall₂ (FolderAndTag str dim) ps xs) (hne : ps ≠ [])
    (hfold : (xs.map Prod.fst).Nodup) (hdf : dim ∉ xs.map Prod.fst)
    (loc pre parts : List PyStr) (hloc : pm.location r = some (folders loc ++ fileName parts))
    (hbase : (pm.baseDir = some (folders pre) ∧ pre ≠ []) ∨
      (pm.baseDir = none ∧ pre = loc ∧ ∃ l a, a ≠ [] ∧ loc = l ++ [a]))
    (hpre : ∀ a ∈ pre, '/' ∉ a) (hfree : ¬ dim <:+: folders pre)
    (hpn : parts ≠ []) (hp : ∀ c ∈ parts, Part c) (hps : ∀ c ∈ parts, '/' ∉ c)
    (hend : ∀ c ∈ parts, ∀ ext ∈ [lit "ly", lit "rs", lit "sc", lit "sh"], ¬ ext <:+ c) :
    preMadeFile str pm r ps =
      .ok (folders (pre ++ dim :: xs.map Prod.fst) ++ fileName (parts ++ xs.map Prod.snd)) := by
  have hslash := fileName_slash hps
  have hb : baseName (folders loc ++ fileName parts) = fileName parts := by
    refine baseName_path hslash ?_
    by_cases h : loc = []
    · exact .inl (by rw [h]; rfl)
    · exact .inr (folders_getLast h)
  refine preMadeFile_from hdim hdne hx hne hfold hdf hloc ?_ hb hpre hfree hpn hp hend
  unfold PreMade.startDir
  rcases hbase with ⟨h1, h2⟩ | ⟨h1, rfl, l, a, ha, rfl⟩
  · rw [h1]
    dsimp only
    rw [if_neg]
    intro h
    have := folders_getLast h2
    rw [h] at this
    cases this
  · rw [h1]
    dsimp only
    have e : folders (l ++ [a]) = (folders l ++ a) ++ ['/'] := by
      rw [folders_append]; simp [folders]
    have e2 : folders (l ++ [a]) ++ fileName parts = (folders l ++ a) ++ '/' :: fileName parts := by
      rw [e]; simp
    rw [e2, dirName_path hslash (by simp [ha]), e]
    rw [List.getLast?_append_of_ne_nil _ ha]
    intro hl
    exact hpre a (by simp) (List.mem_of_getLast? hl)

/-- Where the files of a fit with the base directory `/pre/` and of one without are. -/
example : ∃ p : Param, p.kind = .scale ∧ p.value = some 2 ∧ p.dimension = some (lit "energy") ∧
    preMadeFile (fun _ => lit "2.0") ⟨some (lit "/pre/"), fun _ => some (lit "/data/Te130_mc.hdf5"),
      fun _ => none, fun _ => .error .exception⟩ 0 [p] =
      .ok (lit "/pre/energy/scale/Te130_mc_2sc.hdf5") ∧
    preMadeFile (fun _ => lit "2.0") ⟨none, fun _ => some (lit "/data/Te130_mc.hdf5"),
      fun _ => none, fun _ => .error .exception⟩ 0 [p] =
      .ok (lit "/data/energy/scale/Te130_mc_2sc.hdf5") := by
  have hx : List.Forall₂ (FolderAndTag (fun _ => lit "2.0") (lit "energy"))
      [⟨.scale, lit "energy_scale", some (lit "energy"), 1, none, some 2⟩]
      [(lit "scale", lit "2sc")] :=
    .cons ⟨rfl, 2, lit "sc", lit "2", rfl, .scale _, .whole (lit "2") (by decide) (by decide) (by decide),
      rfl⟩ .nil
  refine ⟨⟨.scale, lit "energy_scale", some (lit "energy"), 1, none, some 2⟩, rfl, rfl, rfl, ?_, ?_⟩
  · exact c150_file_partial _ _ _ _ _ (lit "energy") (by decide) (by decide) hx (by simp) (by decide)
      (by decide) [[], lit "data"] [[], lit "pre"] [lit "Te130", lit "mc"] rfl
      (.inl ⟨rfl, by simp⟩) (by decide) (by decide) (by simp)
      (by
        intro c hc
        simp only [List.mem_cons, List.not_mem_nil, or_false] at hc
        rcases hc with rfl | rfl <;> exact ⟨by decide, by decide⟩) (by decide) (by decide)
  · exact c150_file_partial _ _ _ _ _ (lit "energy") (by decide) (by decide) hx (by simp) (by decide)
      (by decide) [[], lit "data"] [[], lit "data"] [lit "Te130", lit "mc"] rfl
      (.inr ⟨rfl, rfl, [[]], lit "data", by decide, rfl⟩) (by decide) (by decide) (by simp)
      (by
        intro c hc
        simp only [List.mem_cons, List.not_mem_nil, or_false] at hc
        rcases hc with rfl | rfl <;> exact ⟨by decide, by decide⟩) (by decide) (by decide)

/-- **C150, missing files.** When the file for a background cannot be loaded, the evaluation raises what
loading raises, whatever has been evaluated before; a spectrum that was not loaded from a file
raises an AttributeError. -/
theorem c150_missing_partial (env : FitEnv) (pm : PreMade) (f : Fit) (st : FitState)
    (hr : PreMadeReady env pm f st)
    (hist : List (List ℚ)) (hh : ∀ a ∈ hist, FullArgs f a ∧ NonzeroRates f st a)
    (args : List ℚ) (hl : FullArgs f args)
    {b : ℕ × List PyStr} {fl : List (ℕ × List PyStr)} (hf : f.floating = some (b :: fl))
    {obs : NdArray ℚ} (hobs : (st.view f.data).ndProject f.dataPars = .ok obs)
    {fixed : List (NdArray ℚ)}
    (hfix : List.Forall₂ (fun b p => (st.view b.1).ndProject b.2 = .ok p) f.fixed.toList fixed)
    {ps : List Param} (hps : WithTheseValues st (f.pars.zip args) f.globals ps) {er : PyErr}
    (hfile : (pm.location b.1 = none ∧ er = .attributeError) ∨
      ∃ file, preMadeFile env.str pm b.1 ps = .ok file ∧ pm.files file = .error er) :
    (preMadeFunct env pm f args (afterPreMade env pm f hist (st, fun _ => none))).2 =
      .error er := by
  obtain ⟨_, -, e⟩ := preMadeFunct_run hr (preState_after hr hh preState_start) hf hl
  rw [e]
  have hload : loadV env pm f st b.1 (withValues f.pars args st.params) = .error er := by
    unfold loadV loadPreMade
    rw [← withTheseValues_map hr hps]
    rcases hfile with ⟨h1, rfl⟩ | ⟨file, h1, h2⟩
    · unfold preMadeFile
      rw [h1]
      rfl
    · rw [h1, okBind, h2]
      rfl
  have hfv : ∃ e0, fixedValue f st = .ok e0 := by
    unfold fixedValue
    cases hb : f.fixed with
    | none => exact ⟨none, rfl⟩
    | some b =>
      rw [hb] at hfix
      cases hfix with
      | cons h1 _ => exact ⟨_, by simp only [h1]; rfl⟩
  obtain ⟨e0, he0⟩ := hfv
  show preFunctV env pm f st args (b :: fl) = _
  unfold preFunctV preContentsV
  rw [hobs, okBind, he0, okBind, List.foldlM_cons]
  have : preRoundV env pm f st (withValues f.pars args st.params) e0 b = .error er := by
    unfold preRoundV
    rw [hload]
    rfl
  rw [this]
  rfl

/-! ### cases that meet the hypotheses -/

namespace Ex

/-- Values are written in unary, with `.0` for whole numbers. -/
def preStr (v : ℚ) : PyStr := List.replicate v.num.natAbs '1' ++ '.' ::
  ((if v.den = 1 then lit "0" else List.replicate v.den '1') ++ (if v < 0 then lit "-" else []))

/-- The environment with these texts. -/
def preEnv : FitEnv := { fitEnv with str := preStr }

/-- sixteen bins from 0 to 4 -/
def preAxis : SPar := ⟨lit "energy_mc", 0, 4, 16⟩

/-- Spectra on this axis. -/
def preSpectrum (a n : ℚ) : Spectrum :=
  ⟨lit "pre", [preAxis], NdArray.norm ⟨[16], fun idx => a + idx.sum⟩, n, 0, []⟩

/-- There are files for the value 2 of the global parameter, with a base directory. -/
def preMade : PreMade where
  baseDir := some (lit "/pre/")
  location := fun r => some (lit "/data/" ++ (fitObj r).background ++ lit ".hdf5")
  origDecays := fun _ => none
  files := fun file =>
    if file = lit "/pre/energy_mc/smear/bkg_11rs.hdf5" then .ok (preSpectrum 0 120)
    else if file = lit "/pre/energy_mc/smear/other_11rs.hdf5" then .ok (preSpectrum 1 10)
    else if file = lit "/pre/energy_mc/smear/signal_11rs.hdf5" then .ok (preSpectrum 2 4)
    else .error .exception

end Ex

theorem ex_preStr : Function.Injective Ex.preStr ∧ ∀ v, '_' ∉ Ex.preStr v := by
  constructor
  · intro v w h
    unfold Ex.preStr at h
    have h1 : ∀ (m n : ℕ) (x y : List Char), List.replicate m '1' ++ '.' :: x =
        List.replicate n '1' ++ '.' :: y → m = n ∧ x = y := by
      intro m
      induction m with
      | zero =>
        intro n x y h
        cases n with
        | zero => exact ⟨rfl, by simpa using h⟩
        | succ n => simp [List.replicate_succ] at h
      | succ m ih =>
        intro n x y h
        cases n with
        | zero => simp [List.replicate_succ] at h
        | succ n =>
          obtain ⟨a, b⟩ := ih n x y (by simpa [List.replicate_succ] using h)
          exact ⟨by rw [a], b⟩
    obtain ⟨h2, h3⟩ := h1 _ _ _ _ h
    have hsign : ∀ z : ℚ, List.count '1' (if z < 0 then lit "-" else []) = 0 := by
      intro z; split <;> rfl
    have hden : ∀ z : ℚ, List.count '1' (if z.den = 1 then lit "0" else List.replicate z.den '1') =
        if z.den = 1 then 0 else z.den := by
      intro z
      by_cases hz : z.den = 1
      · rw [if_pos hz, if_pos hz]; rfl
      · rw [if_neg hz, if_neg hz, List.count_replicate_self]
    have h4 : v.den = w.den := by
      have := congrArg (List.count '1') h3
      rw [List.count_append, List.count_append, hsign, hsign, hden, hden] at this
      have := v.den_pos
      have := w.den_pos
      split_ifs at * <;> omega
    have hden' : ∀ z : ℚ, List.count '-' (if z.den = 1 then lit "0" else List.replicate z.den '1') =
        0 := by
      intro z
      by_cases hz : z.den = 1
      · rw [if_pos hz]; rfl
      · rw [if_neg hz, List.count_replicate]; rfl
    have h5 : v < 0 ↔ w < 0 := by
      have := congrArg (List.count '-') h3
      rw [List.count_append, List.count_append, hden', hden'] at this
      by_cases a : v < 0 <;> by_cases b : w < 0 <;> simp [a, b] at this ⊢
    have h6 : v.num = w.num := by
      rw [← Rat.num_neg, ← Rat.num_neg] at h5
      omega
    exact Rat.ext h6 h4
  · intro v
    unfold Ex.preStr
    simp only [List.mem_append, List.mem_replicate, List.mem_cons]
    split <;> split <;> simp

/-- The cut spectrum. -/
def Ex.preCut (s : Spectrum) : Spectrum :=
  { ((s.shrink [(lit "energy_mc_low", 0), (lit "energy_mc_high", 2)]).st.rebin [4]).st with
    data := ((s.shrink [(lit "energy_mc_low", 0), (lit "energy_mc_high", 2)]).st.rebin
      [4]).st.data.norm }

theorem ex_cut {s : Spectrum}
    (hs : s = Ex.preSpectrum 0 120 ∨ s = Ex.preSpectrum 1 10 ∨ s = Ex.preSpectrum 2 4) :
    CutToData (Ex.fitState.view 0) s (Ex.preCut s) ∧
    OnDataAxes (Ex.fitState.view 0) (Ex.preCut s) ∧
    (Ex.preCut s).ndProject [lit "energy_mc"] = .ok (Ex.preCut s).data ∧
    (Ex.preCut s).data.shape = [4] := by
  have h1 : (s.shrink [(lit "energy_mc_low", 0), (lit "energy_mc_high", 2)]).err = none := by
    rcases hs with rfl | rfl | rfl <;> decide +kernel
  have h2 : (s.shrink [(lit "energy_mc_low", 0), (lit "energy_mc_high", 2)]).st.cfg =
      [⟨lit "energy_mc", 0, 2, 8⟩] := by
    rcases hs with rfl | rfl | rfl <;> decide +kernel
  have h3 : (s.shrink [(lit "energy_mc_low", 0), (lit "energy_mc_high", 2)]).st.data.shape =
      [8] := by
    rcases hs with rfl | rfl | rfl <;> decide +kernel
  have h4 : ((s.shrink [(lit "energy_mc_low", 0), (lit "energy_mc_high", 2)]).st.rebin [4]).err =
      none := by
    rcases hs with rfl | rfl | rfl <;> decide +kernel
  have h5 : (Ex.preCut s).cfg = [Ex.fitAxis] := by
    rcases hs with rfl | rfl | rfl <;> decide +kernel
  have h6 : (Ex.preCut s).data.shape = [4] := by
    rcases hs with rfl | rfl | rfl <;> decide +kernel
  have h7 : s.cfg = [Ex.preAxis] := by rcases hs with rfl | rfl | rfl <;> rfl
  refine ⟨⟨[(lit "energy", (0, 2))], [(lit "energy_mc_low", 0), (lit "energy_mc_high", 2)],
    .cons ⟨⟨lit "mc", by decide, rfl⟩, rfl⟩ .nil,
    .cons Ex.preAxis (lit "energy") 0 2 [] [] (by simp [h7]) ⟨lit "mc", by decide, rfl⟩ .nil,
    h1, ⟨?_, ?_, ?_⟩, h4, rfl⟩, ?_, ?_, h6⟩
  · rw [h2]; simp [SPar.WF]
  · rw [h2]; simp
  · rw [h2, h3]; rfl
  · exact onDataAxes_alike (ex_onDataAxes (Ex.fitState.view 0).data (lit "data") (lit "x") 26 1 26 1 rfl
      (Ex.preCut s).data h6) h5 rfl
  · unfold Spectrum.ndProject Spectrum.getIndex Spectrum.pars
    rw [h5]
    rfl

theorem ex_files {file : PyStr} {s : Spectrum} (h : Ex.preMade.files file = .ok s) :
    s = Ex.preSpectrum 0 120 ∨ s = Ex.preSpectrum 1 10 ∨ s = Ex.preSpectrum 2 4 := by
  unfold Ex.preMade at h
  dsimp only at h
  split_ifs at h
  · exact .inl (Except.ok.inj h).symm
  · exact .inr (.inl (Except.ok.inj h).symm)
  · exact .inr (.inr (Except.ok.inj h).symm)

theorem ex_preReady : PreMadeReady Ex.preEnv Ex.preMade Ex.fitGlobal Ex.fitState where
  str := ex_preStr
  backgrounds := ex_ready.backgrounds
  decays := ex_ready.decays
  pars := ex_ready.pars
  globals := fun p hp => (ex_ready.globals p hp).1
  rates := ex_ready.rates
  files := by
    intro file s h
    have hs := ex_files h
    obtain ⟨h1, h2, -, -⟩ := ex_cut hs
    have hc : s.cfg = [Ex.preAxis] := by rcases hs with rfl | rfl | rfl <;> rfl
    have hd : s.data.shape = [16] := by rcases hs with rfl | rfl | rfl <;> rfl
    refine ⟨⟨?_, ?_, ?_⟩, ?_, ⟨_, h1, h2⟩, ?_⟩
    · rw [hc]; simp [SPar.WF, Ex.preAxis]
    · rw [hc]; simp
    · rw [hc, hd]; rfl
    · rw [hc]
      intro p hp q hq _ _ _
      rw [List.mem_singleton.1 hp, List.mem_singleton.1 hq]
    · rcases hs with rfl | rfl | rfl <;> exact NdArray.norm_norm _

theorem ex_term {r : ℕ} {file : PyStr} {s : Spectrum} {b c : ℚ}
    (hfile : preMadeFile Ex.preStr Ex.preMade r
      [⟨.resolution, lit "global", some (lit "energy_mc"), 10, some 2, some 2⟩] = .ok file)
    (hs : Ex.preMade.files file = .ok s) (hd : s.numDecays ≠ 0) :
    IsPreTerm Ex.preEnv Ex.preMade Ex.fitGlobal Ex.fitState [2, b, c] (r, [lit "energy_mc"])
      ⟨s.numDecays, (Ex.preCut s).data⟩ := by
  obtain ⟨h1, -, h3, -⟩ := ex_cut (ex_files hs)
  exact ⟨_, file, s, _, .cons ⟨2, by simp [Ex.fitGlobal], rfl⟩ .nil, hfile, hs, rfl, hd, h1, h3⟩

/-- Fixed background, two floating backgrounds and signal, the pre-made spectra with more bins and a
wider range than the data; after three evaluations, one of which finds no files. -/
example : ∃ e, preMadeEvaluated Ex.preEnv Ex.preMade Ex.fitGlobal [2, 5, 0]
      (afterPreMade Ex.preEnv Ex.preMade Ex.fitGlobal [[2, 5, 7], [8, 1, 2], [2, 3, 3]]
        (Ex.fitState, fun _ => none)) = .ok ((Ex.fitState.view 0).data, some e) ∧
    e.shape = [4] ∧ ∀ idx, InB [4] idx → e.get idx =
      (Ex.fitState.view 1).data.get idx +
      (5 / 120 * (Ex.preCut (Ex.preSpectrum 0 120)).data.get idx +
        0 / 10 * (Ex.preCut (Ex.preSpectrum 1 10)).data.get idx) +
      2 / 4 * (Ex.preCut (Ex.preSpectrum 2 4)).data.get idx := by
  have t2 := ex_term (r := 2) (b := 5) (c := 0) (file := lit "/pre/energy_mc/smear/bkg_11rs.hdf5")
    (s := Ex.preSpectrum 0 120) (by decide +kernel) rfl (by decide +kernel)
  have t3 := ex_term (r := 3) (b := 5) (c := 0) (file := lit "/pre/energy_mc/smear/other_11rs.hdf5")
    (s := Ex.preSpectrum 1 10) (by decide +kernel) rfl (by decide +kernel)
  have t4 := ex_term (r := 4) (b := 5) (c := 0) (file := lit "/pre/energy_mc/smear/signal_11rs.hdf5")
    (s := Ex.preSpectrum 2 4) (by decide +kernel) rfl (by decide +kernel)
  obtain ⟨e, he, hs, hg⟩ := c150_expected_partial _ _ _ _ ex_preReady
    [[2, 5, 7], [8, 1, 2], [2, 3, 3]]
    (by
      intro a ha
      have : a = [2, 5, 7] ∨ a = [8, 1, 2] ∨ a = [2, 3, 3] := by simpa using ha
      rcases this with rfl | rfl | rfl <;> exact ex_nonzero _ _ _ (by norm_num) (by norm_num))
    [2, 5, 0] rfl (fl := [(2, [lit "energy_mc"]), (3, [lit "energy_mc"])]) rfl
    (obs := (Ex.fitState.view 0).data) rfl
    (fixed := [(Ex.fitState.view 1).data]) (.cons rfl .nil)
    (xs := [(5, _), (0, _)])
    (.cons ⟨t2, 0, rfl, by simp [Ex.fitGlobal]⟩ (.cons ⟨t3, 1, rfl, by simp [Ex.fitGlobal]⟩ .nil))
    (.cons t4 .nil) (sh := [4])
    (by intro p hp; rw [List.mem_singleton.1 hp]; rfl)
    (by
      intro x hx
      simp only [List.mem_cons, List.not_mem_nil, or_false] at hx
      rcases hx with rfl | rfl
      · exact (ex_cut (.inl rfl)).2.2.2
      · exact (ex_cut (.inr (.inl rfl))).2.2.2)
    (by intro y hy; rw [List.mem_singleton.1 hy]; exact (ex_cut (.inr (.inr rfl))).2.2.2)
    (.inr (by simp))
  refine ⟨e, he, hs, fun idx hi => ?_⟩
  rw [hg idx hi]
  simp only [List.map_cons, List.map_nil, List.sum_cons, List.sum_nil, add_zero]
  have : Ex.fitGlobal.signal.toList = [(4, [lit "energy_mc"])] := rfl
  rw [this]
  simp only [List.zipWith_cons_cons, List.zipWith_nil_left, List.sum_cons, List.sum_nil, add_zero]
  rfl

/-- The numbers. -/
example : expectedList (preMadeEvaluated Ex.preEnv Ex.preMade Ex.fitGlobal [2, 5, 0]
      (afterPreMade Ex.preEnv Ex.preMade Ex.fitGlobal [[2, 5, 7], [8, 1, 2], [2, 3, 3]]
        (Ex.fitState, fun _ => none))) =
    .ok (some [85 / 24, 137 / 24, 63 / 8, 241 / 24]) := by
  decide +kernel

example := c150_history_partial _ _ _ _ ex_preReady [[2, 5, 7], [8, 1, 2], [2, 3, 3]]
  (by
    intro a ha
    have : a = [2, 5, 7] ∨ a = [8, 1, 2] ∨ a = [2, 3, 3] := by simpa using ha
    rcases this with rfl | rfl | rfl <;> exact ex_nonzero _ _ _ (by norm_num) (by norm_num))
  [2, 5, 0] rfl

/-- There is no file for the value 8. -/
example : (preMadeFunct Ex.preEnv Ex.preMade Ex.fitGlobal [8, 1, 2]
    (afterPreMade Ex.preEnv Ex.preMade Ex.fitGlobal [[2, 5, 7]] (Ex.fitState, fun _ => none))).2 =
    .error .exception :=
  c150_missing_partial _ _ _ _ ex_preReady [[2, 5, 7]]
    (by
      intro a ha
      rw [List.mem_singleton.1 ha]
      exact ex_nonzero _ _ _ (by norm_num) (by norm_num))
    [8, 1, 2] rfl (b := (2, [lit "energy_mc"])) rfl (obs := (Ex.fitState.view 0).data) rfl
    (fixed := [(Ex.fitState.view 1).data]) (.cons rfl .nil)
    (ps := [⟨.resolution, lit "global", some (lit "energy_mc"), 10, some 2, some 8⟩])
    (.cons ⟨8, by simp [Ex.fitGlobal], rfl⟩ .nil)
    (.inr ⟨lit "/pre/energy_mc/smear/bkg_11111111rs.hdf5", by decide +kernel, rfl⟩)

/-- Files that hold what applying the parameter gives, with 30 decays. -/
noncomputable def Ex.convMade : PreMade := { Ex.preMade with
  files := fun file =>
    let made := fun r => (convolve Ex.fitEnv .resolution (some (lit "energy_mc")) 2
      (Ex.fitState.view r)).map (fun t => t.norm.rescaled 30)
    if file = lit "/pre/energy_mc/smear/bkg_11rs.hdf5" then made 2
    else if file = lit "/pre/energy_mc/smear/other_11rs.hdf5" then made 3
    else if file = lit "/pre/energy_mc/smear/signal_11rs.hdf5" then made 4
    else .error .exception }

theorem ex_convFiles {file : PyStr} {s : Spectrum} (h : Ex.convMade.files file = .ok s) :
    ∃ r, (r = 2 ∨ r = 3 ∨ r = 4) ∧ (convolve Ex.fitEnv .resolution (some (lit "energy_mc")) 2
      (Ex.fitState.view r)).map (fun t => t.norm.rescaled 30) = .ok s := by
  unfold Ex.convMade at h
  dsimp only at h
  split_ifs at h
  · exact ⟨2, by simp, h⟩
  · exact ⟨3, by simp, h⟩
  · exact ⟨4, by simp, h⟩

theorem ex_convReady : FitReady Ex.preEnv Ex.fitGlobal Ex.fitState :=
  { ex_ready with str := ex_preStr }

theorem ex_convMadeReady : PreMadeReady Ex.preEnv Ex.convMade Ex.fitGlobal Ex.fitState where
  str := ex_preStr
  backgrounds := ex_ready.backgrounds
  decays := ex_ready.decays
  pars := ex_ready.pars
  globals := fun p hp => (ex_ready.globals p hp).1
  rates := ex_ready.rates
  files := by
    intro file s h
    obtain ⟨r, hr, h⟩ := ex_convFiles h
    cases hc : convolve Ex.fitEnv .resolution (some (lit "energy_mc")) 2 (Ex.fitState.view r) with
    | error e => rw [hc] at h; cases h
    | ok t =>
      rw [hc] at h
      rw [← Except.ok.inj h]
      have hal := convolve_alike hc
      exact fitsData_self (onDataAxes_alike (ex_ready.axes r (by
        rcases hr with rfl | rfl | rfl <;> simp [Fit.moving, Fit.floatingRefs, Ex.fitGlobal, Ex.fit]))
        hal.cfg hal.shape) (NdArray.norm_norm _)

theorem ex_holds {r : ℕ} {file : PyStr} {b c : ℚ}
    (hfile : preMadeFile Ex.preStr Ex.convMade r
      [⟨.resolution, lit "global", some (lit "energy_mc"), 10, some 2, some 2⟩] = .ok file)
    (hr : Ex.convMade.files file = (convolve Ex.fitEnv .resolution (some (lit "energy_mc")) 2
      (Ex.fitState.view r)).map (fun t => t.norm.rescaled 30))
    (hok : (convolve Ex.fitEnv .resolution (some (lit "energy_mc")) 2
      (Ex.fitState.view r)).toBool = true) :
    ∃ t, Convolved Ex.preEnv Ex.fitState [(2, 2), (0, b), (1, c)] [2] (Ex.fitState.view r) t ∧
      t.ndProject [lit "energy_mc"] = .ok t.data ∧ t.data.shape = [4] ∧
      HoldsScaled Ex.preEnv Ex.convMade Ex.fitGlobal Ex.fitState [2, b, c] r t := by
  cases h : convolve Ex.fitEnv .resolution (some (lit "energy_mc")) 2 (Ex.fitState.view r) with
  | error e => rw [h] at hok; cases hok
  | ok t =>
    rw [h] at hr
    have hal := convolve_alike h
    refine ⟨_, .cons 2 2 [] _ t _ (by simp) (appliedTo_iff.2 h) (.nil _), ?_, ?_, ?_⟩
    · unfold Spectrum.ndProject Spectrum.getIndex Spectrum.pars
      simp only [hal.cfg]
      rfl
    · have h4 : (Ex.fitState.view r).data.shape = [4] := by
        unfold FitState.view Ex.fitState Ex.fitObj
        simp only
        split <;> rfl
      exact hal.shape.trans h4
    · refine ⟨_, file, _, .cons ⟨2, by simp [Ex.fitGlobal], rfl⟩ .nil, hfile, hr, ?_, rfl, rfl, ?_⟩
      · show (30 : ℚ) ≠ 0
        norm_num
      · intro idx hi
        exact (rescaled_times t.norm 30).2 idx hi

/-- Both fits, after different evaluations. -/
example : ∃ e e', evaluatedContents Ex.preEnv Ex.fitGlobal [2, 5, 0]
      (afterEvaluations Ex.preEnv Ex.fitGlobal [[20, 5, 7], [2, 3, 3]] Ex.fitState) =
      .ok ((Ex.fitState.view 0).data, some e) ∧
    preMadeEvaluated Ex.preEnv Ex.convMade Ex.fitGlobal [2, 5, 0]
      (afterPreMade Ex.preEnv Ex.convMade Ex.fitGlobal [[2, 1, 1]] (Ex.fitState, fun _ => none)) =
      .ok ((Ex.fitState.view 0).data, some e') ∧
    e.shape = [4] ∧ e'.shape = [4] ∧ ∀ idx, InB [4] idx → e'.get idx = e.get idx := by
  obtain ⟨t2, c2, p2, s2, h2⟩ := ex_holds (r := 2) (b := 5) (c := 0)
    (file := lit "/pre/energy_mc/smear/bkg_11rs.hdf5") (by decide +kernel) rfl (by decide +kernel)
  obtain ⟨t3, c3, p3, s3, h3⟩ := ex_holds (r := 3) (b := 5) (c := 0)
    (file := lit "/pre/energy_mc/smear/other_11rs.hdf5") (by decide +kernel) rfl (by decide +kernel)
  obtain ⟨t4, c4, p4, s4, h4⟩ := ex_holds (r := 4) (b := 5) (c := 0)
    (file := lit "/pre/energy_mc/smear/signal_11rs.hdf5") (by decide +kernel) rfl (by decide +kernel)
  exact c150_same_as_convolving_partial _ _ _ _ ex_convReady ex_convMadeReady
    [[20, 5, 7], [2, 3, 3]] [[2, 1, 1]]
    (by
      intro a ha
      have : a = [20, 5, 7] ∨ a = [2, 3, 3] ∨ a = [2, 1, 1] := by simpa using ha
      rcases this with rfl | rfl | rfl <;> exact ex_nonzero _ _ _ (by norm_num) (by norm_num))
    [2, 5, 0] rfl (fl := [(2, [lit "energy_mc"]), (3, [lit "energy_mc"])]) rfl
    (obs := (Ex.fitState.view 0).data) rfl
    (fixed := [(Ex.fitState.view 1).data]) (.cons rfl .nil)
    (xs := [⟨t2, 5, t2.data⟩, ⟨t3, 0, t3.data⟩])
    (.cons ⟨⟨c2, ⟨0, rfl, by simp [Ex.fitGlobal]⟩, p2⟩, h2⟩
      (.cons ⟨⟨c3, ⟨1, rfl, by simp [Ex.fitGlobal]⟩, p3⟩, h3⟩ .nil))
    (signal := [t4.data])
    (.cons ⟨t4, .inr ⟨[], 2, rfl, fun p hp => absurd hp (by simp), c4⟩, p4, h4⟩ .nil)
    (sh := [4])
    (by
      intro p hp
      have : p = (Ex.fitState.view 1).data ∨ p = t2.data ∨ p = t3.data ∨ p = t4.data := by
        simpa using hp
      rcases this with rfl | rfl | rfl | rfl
      · rfl
      all_goals assumption)
    (.inr (by simp))

/-! ### where it fails -/

/-- **C150, zero rates.** Once a background has been scaled to zero, evaluations at values tried
before raise. -/
theorem c150_zero_negation :
    expectedList (preMadeEvaluated Ex.preEnv Ex.preMade Ex.fitGlobal [2, 5, 10]
      (Ex.fitState, fun _ => none)) = .ok (some [157 / 24, 305 / 24, 151 / 8, 601 / 24]) ∧
    expectedList (preMadeEvaluated Ex.preEnv Ex.preMade Ex.fitGlobal [2, 5, 10]
      (afterPreMade Ex.preEnv Ex.preMade Ex.fitGlobal [[2, 5, 0]] (Ex.fitState, fun _ => none))) =
      .error .zeroDivision := by
  decide +kernel

/-- **C150, bare file names.** For a spectrum that was loaded from the current directory by the bare
name of its file, the pre-made spectra are looked for in the root directory. -/
theorem c150_bare_name_negation (str : ℚ → PyStr) (pm : PreMade) (r : ℕ) (p : Param)
    (dim folder tag : PyStr) (hdim : '/' ∉ dim) (hdne : dim ≠ [])
    (hx : FolderAndTag str dim p (folder, tag)) (hdf : dim ≠ folder)
    (parts : List PyStr) (hloc : pm.location r = some (fileName parts)) (hbase : pm.baseDir = none)
    (hpn : parts ≠ []) (hp : ∀ c ∈ parts, Part c) (hps : ∀ c ∈ parts, '/' ∉ c)
    (hend : ∀ c ∈ parts, ∀ ext ∈ [lit "ly", lit "rs", lit "sc", lit "sh"], ¬ ext <:+ c) :
    preMadeFile str pm r [p] =
      .ok (lit "/" ++ (dim ++ lit "/" ++ (folder ++ lit "/" ++ fileName (parts ++ [tag])))) := by
  have hslash := fileName_slash hps
  have := preMadeFile_from (pre := [[]]) hdim hdne (.cons hx .nil) (by simp) (by simp)
    (by simpa using hdf) hloc (by
      unfold PreMade.startDir
      rw [hbase]
      dsimp only
      rw [dirName_bare hslash]
      rfl) (by simpa using baseName_path (dir := []) hslash (.inl rfl)) (by simp) (by
      intro h
      have hs : folders [[]] = ['/'] := rfl
      rw [hs] at h
      obtain ⟨a, b, h⟩ := h
      have hm : ∀ c ∈ dim, c = '/' := by
        intro c hc
        have : c ∈ ['/'] := by rw [← h]; simp [hc]
        simpa using this
      cases dim with
      | nil => exact hdne rfl
      | cons c l => exact hdim (by rw [hm c (by simp)]; simp)) hpn hp hend
  rw [this]
  simp [folders]

/-- **C150, base directory without a slash.** The folder of the dimension is then glued to the name of
the base directory. -/
theorem c150_slash_negation : preMadeFile Ex.preStr { Ex.preMade with baseDir := some (lit "/pre") } 2
      [⟨.resolution, lit "global", some (lit "energy_mc"), 10, some 2, some 2⟩] =
    .ok (lit "/preenergy_mc/smear/bkg_11rs.hdf5") := by
  decide +kernel

/-- **C150, `set_pre_made_dir`.** Setting the directory of pre-made spectra succeeds and changes
nothing: the files are still looked for in the directory given to the constructor. -/
theorem c150_set_dir_negation (str : ℚ → PyStr) (pm : PreMade) (isdir : PyStr → Bool)
    (d : PreMadeDirs) (directory : PyStr) (h : isdir directory = true) (r : ℕ) (ps : List Param) :
    (d.set isdir directory).2 = none ∧
      preMadeFile str { pm with baseDir := (d.set isdir directory).1.base } r ps =
        preMadeFile str { pm with baseDir := d.base } r ps := by
  unfold PreMadeDirs.set
  rw [if_pos h]
  exact ⟨rfl, rfl⟩

end Verif
