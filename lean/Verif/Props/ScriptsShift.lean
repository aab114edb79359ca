import Verif.Props.Scripts

/-! # C113: the scripts that shift and scale -/

namespace Verif

open Spectrum

theorem shift_whole (str : ℚ → PyStr) (spline : List ℚ → List ℚ → Except PyErr (ℚ → ℚ))
    {s : Spectrum} (hs : s.WF) {p : SPar} (hm : p ∈ s.cfg) {m : ℤ} {x : ℚ}
    (h1 : m * p.width ≤ x) (h2 : x - m * p.width ≤ 1 / 10 ^ 8)
    (h3 : x - m * p.width < p.width / 2) {t : Spectrum}
    (ht : s.shiftByBin str p.name x = .ok t) :
    s.shift str spline p.name x = .ok (.finite t) := by
  have hp := hs.axes p hm
  have hw := hp.width_pos
  have hb := hp.1
  have hmod := pyMod_of_close hw h1 (by linarith)
  unfold Spectrum.shift
  simp only [bind, Except.bind, pure, Except.pure, throw, throwThe, MonadExceptOf.throw,
    getPar_mem hs.names hm, ht]
  rw [if_neg (by rintro (h | h); omega; exact hw.ne' h), if_pos]
  rw [hmod, npClose_zero (by linarith)]
  exact h2

theorem noRois_eq {s : FullSpec} {c : Spectrum} (h : c.rois = s.core.rois) : c.noRois = c := by
  have : c.rois = [] := h
  unfold Spectrum.noRois
  rw [← this]

theorem isPath_ne_nil {p dir stem ext : PyStr} (h : IsPath p dir stem ext) : p ≠ [] := by
  rw [h.eq]; simp

/-- The script up to the shift. -/
theorem shiftScript_eq (ft : FloatText) (str : ℚ → PyStr)
    (spline : List ℚ → List ℚ → Except PyErr (ℚ → ℚ)) {disk : Disk} {file : PyStr} {s : FullSpec}
    (h : Holds ft disk file s) {out : PyStr} (ho : Beside file (lit "_shifted.hdf5") out)
    {dim : PyStr} (hd : dim ≠ []) {x : ℚ} (hx : x ≠ 0) :
    shiftScript ft str spline disk file dim (some x) =
      match s.core.shift str spline dim x with
      | .error e => .stopped disk (.raised e)
      | .ok r => dumpNp disk out s r := by
  obtain ⟨dir, stem, ext, hp, rfl⟩ := ho
  unfold shiftScript
  rw [if_neg (isPath_ne_nil hp)]
  dsimp only
  rw [if_neg (by simp [hx, hd]), loadAt_holds h]
  dsimp only
  unfold besides
  rw [cutPath_ext hp]
  cases s.core.shift str spline dim x <;> rfl

/-- **C113, whole bins.** `dump_shifted.py` with a whole number `m ≠ 0` of bin widths saves beside
the input, with `_shifted.hdf5` in place of the extension, the spectrum whose contents are moved by
`m` bins; everything else but the name is kept and no other file is changed. -/
theorem c113_shift_bins (ft : FloatText) (str : ℚ → PyStr)
    (spline : List ℚ → List ℚ → Except PyErr (ℚ → ℚ)) (disk : Disk) (file : PyStr) (s : FullSpec)
    (b : PyStr) (h : Input ft disk file s b) (hn : NonNeg s.data) (out : PyStr)
    (ho : Beside file (lit "_shifted.hdf5") out) (k : ℕ) (p : SPar) (hk : s.core.cfg[k]? = some p)
    (hpn : p.name ≠ []) (m : ℤ) (hm : m ≠ 0) :
    ∃ disk' t, shiftScript ft str spline disk file p.name
        (some (m * ((p.high - p.low) / p.bins))) = .done disk' ∧ OnlyAt out disk disk' ∧
      Input ft disk' out t b ∧ Moved s.data t.data k m ∧ t.core.cfg = s.core.cfg ∧
      t.numDecays = s.numDecays ∧ t.rawEvents = s.rawEvents ∧
      t.name = s.name ++ lit "_shift" ++ str (m * ((p.high - p.low) / p.bins)) ∧
      SameLabels b s t := by
  obtain ⟨hmem, hp, -, -, -⟩ := axis_facts h.wf hk
  have hw := hp.width_pos
  obtain ⟨c, hc, r1, r2, r3, r4, -⟩ := c27_shift_by_bin str s.core h.wf hn k p hk m
    (m * ((p.high - p.low) / p.bins)) le_rfl (by norm_num) (by
      rw [sub_self]; exact div_pos hw two_pos)
  have hfin := shift_whole str spline h.wf hmem (m := m) (x := m * ((p.high - p.low) / p.bins))
    le_rfl (by change m * p.width - m * p.width ≤ _; norm_num)
    (by change m * p.width - m * p.width < _; linarith) hc
  have hx : (m : ℚ) * ((p.high - p.low) / p.bins) ≠ 0 :=
    mul_ne_zero (by exact_mod_cast hm) hw.ne'
  obtain ⟨disk', t, h1, h2, h3, h4, h5, h6⟩ := h.saved out c (by rw [r2.1]) (by rw [r1.1]; rfl)
  rw [noRois_eq r2.2.2.2] at h4
  refine ⟨disk', t, ?_, h2, h6 (wf_of_moved h.wf r1 r2), ?_, ?_, ?_, ?_, ?_, h5⟩
  · rw [shiftScript_eq ft str spline h.holds ho hpn hx, hfin]
    exact h1
  · have : t.data = c.data := congrArg Spectrum.data h4
    rw [this]; exact r1
  · rw [h4]; exact r2.1
  · exact (congrArg Spectrum.numDecays h4).trans r2.2.1
  · exact (congrArg Spectrum.rawEvents h4).trans r2.2.2.1
  · exact (congrArg Spectrum.name h4).trans r3

/-- What is saved of a result with finite contents. -/
theorem dumpNp_done {ft : FloatText} {disk : Disk} {file : PyStr} {s : FullSpec} {b : PyStr}
    (h : Input ft disk file s b) {out : PyStr} {r : NpResult} {disk' : Disk}
    (hd : dumpNp disk out s r = .done disk')
    (hr : ∀ c, r = .finite c → SameButNameData s.core c ∧ c.data.shape = s.core.data.shape) :
    ∃ c t, r = .finite c ∧ OnlyAt out disk disk' ∧ Input ft disk' out t b ∧ t.core = c ∧
      SameLabels b s t := by
  cases r with
  | notFinite => cases hd
  | finite c =>
    obtain ⟨hsame, hsh⟩ := hr c rfl
    obtain ⟨disk'', t, h1, h2, h3, h4, h5, h6⟩ :=
      h.saved out c (by rw [hsame.1]) (by rw [hsh]; rfl)
    have : dumpAt disk out (s.withCore c) = .done disk' := hd
    rw [this] at h1
    injection h1 with h1
    subst h1
    rw [noRois_eq hsame.2.2.2] at h4
    refine ⟨c, t, rfl, h2, h6 ⟨?_, ?_, ?_⟩, h4, h5⟩
    · rw [hsame.1]; exact h.wf.axes
    · rw [hsame.1]; exact h.wf.names
    · rw [hsame.1, hsh]; exact h.wf.shape

/-- **C113, other shifts.** For a shift that is not a whole number of bins, whenever
`dump_shifted.py` saves a spectrum with finite contents it is the input with the total, the decay
count and the axes kept, whose slices are proportional to the interpolation at the position they
were shifted from. -/
theorem c113_shift (ft : FloatText) (str : ℚ → PyStr)
    (spline : List ℚ → List ℚ → Except PyErr (ℚ → ℚ)) (disk : Disk) (file : PyStr) (s : FullSpec)
    (b : PyStr) (h : Input ft disk file s b) (out : PyStr)
    (ho : Beside file (lit "_shifted.hdf5") out) (k : ℕ) (p : SPar) (hk : s.core.cfg[k]? = some p)
    (hpn : p.name ≠ []) (x : ℚ) (hsh : ∀ m : ℤ, m * ((p.high - p.low) / p.bins) ≤ x →
      1 / 10 ^ 8 < x - m * ((p.high - p.low) / p.bins))
    (f : ℚ → ℚ) (hf : s.core.interpolate1d spline p.name = .ok f) (disk' : Disk)
    (hdone : shiftScript ft str spline disk file p.name (some x) = .done disk') :
    ∃ t, OnlyAt out disk disk' ∧ Input ft disk' out t b ∧ t.data.sum = s.data.sum ∧
      t.core.cfg = s.core.cfg ∧ t.numDecays = s.numDecays ∧ t.rawEvents = s.rawEvents ∧
      t.name = s.name ++ lit "_shift" ++ str x ∧ SameLabels b s t ∧
      ∃ C, ∀ i < p.bins.toNat, axisTotal t.data k i = 0 ∨
        ∃ c, p.low ≤ p.centre i - x ∧ p.centre i - x < p.high ∧
          ReadAt p (p.centre i - x) c ∧ 0 < f c ∧ axisTotal t.data k i = C * f c := by
  have hx : x ≠ 0 := by
    rintro rfl
    have := hsh 0 (by simp)
    norm_num at this
  rw [shiftScript_eq ft str spline h.holds ho hpn hx] at hdone
  rcases hr : s.core.shift str spline p.name x with e | r
  · rw [hr] at hdone; cases hdone
  · rw [hr] at hdone
    dsimp only at hdone
    obtain ⟨c, t, rfl, h1, h2, h3, h4⟩ := dumpNp_done h hdone (by
      rintro c rfl
      have := c29_shift str spline s.core h.wf k p hk x hsh f hf c hr
      exact ⟨this.2.1, this.2.2.1⟩)
    obtain ⟨r1, r2, r3, r4, r5, r6⟩ := c29_shift str spline s.core h.wf k p hk x hsh f hf c hr
    have hdat : t.data = c.data := congrArg Spectrum.data h3
    refine ⟨t, h1, h2, by rw [hdat]; exact r1, by rw [h3]; exact r2.1,
      (congrArg Spectrum.numDecays h3).trans r2.2.1,
      (congrArg Spectrum.rawEvents h3).trans r2.2.2.1, (congrArg Spectrum.name h3).trans r4, h4, ?_⟩
    rw [hdat]; exact r6

/-- **C113, the output of a shift.** A file with finite contents is saved if the interpolation is
positive, every slice has contents, the bins are at least `2e-6` wide and some bin is shifted from
inside the axis. -/
theorem c113_shift_saved (ft : FloatText) (str : ℚ → PyStr)
    (spline : List ℚ → List ℚ → Except PyErr (ℚ → ℚ)) (disk : Disk) (file : PyStr) (s : FullSpec)
    (b : PyStr) (h : Input ft disk file s b) (out : PyStr)
    (ho : Beside file (lit "_shifted.hdf5") out) (k : ℕ) (p : SPar) (hk : s.core.cfg[k]? = some p)
    (hpn : p.name ≠ []) (x : ℚ) (hsh : ∀ m : ℤ, m * ((p.high - p.low) / p.bins) ≤ x →
      1 / 10 ^ 8 < x - m * ((p.high - p.low) / p.bins))
    (f : ℚ → ℚ) (hf : s.core.interpolate1d spline p.name = .ok f) (hpos : ∀ x, 0 < f x)
    (hd : ∀ i < p.bins.toNat, 0 < axisTotal s.data k i)
    (hw6 : 2 / 10 ^ 6 ≤ (p.high - p.low) / p.bins)
    (hin : ∃ i < p.bins.toNat, p.low ≤ p.centre i - x ∧ p.centre i - x < p.high) :
    ∃ disk', shiftScript ft str spline disk file p.name (some x) = .done disk' := by
  have hx : x ≠ 0 := by
    rintro rfl
    have := hsh 0 (by simp)
    norm_num at this
  obtain ⟨c, hc⟩ := c31_shift_finite_partial str spline s.core h.wf k p hk x hsh f hf hpos hd hw6 hin
  have r := c29_shift str spline s.core h.wf k p hk x hsh f hf c hc
  obtain ⟨disk', t, h1, -⟩ := h.saved out c (by rw [r.2.1.1]) (by rw [r.2.2.1]; rfl)
  refine ⟨disk', ?_⟩
  rw [shiftScript_eq ft str spline h.holds ho hpn hx, hc]
  exact h1

/-- **C113 fails out of range**: a shift by at least the length of the axis that is not a whole
number of bins saves a file without finite contents. -/
theorem c113_shift_negation (ft : FloatText) (str : ℚ → PyStr)
    (spline : List ℚ → List ℚ → Except PyErr (ℚ → ℚ)) (disk : Disk) (file : PyStr) (s : FullSpec)
    (b : PyStr) (h : Input ft disk file s b) (out : PyStr)
    (ho : Beside file (lit "_shifted.hdf5") out) (p : SPar) (hm : p ∈ s.core.cfg)
    (hpn : p.name ≠ []) (x : ℚ) (hsh : ∀ m : ℤ, m * ((p.high - p.low) / p.bins) ≤ x →
      1 / 10 ^ 8 < x - m * ((p.high - p.low) / p.bins))
    (f : ℚ → ℚ) (hf : s.core.interpolate1d spline p.name = .ok f)
    (hfar : p.high - p.low ≤ |x|) :
    shiftScript ft str spline disk file p.name (some x) = .notFinite := by
  have hx : x ≠ 0 := by
    rintro rfl
    have := hsh 0 (by simp)
    norm_num at this
  rw [shiftScript_eq ft str spline h.holds ho hpn hx,
    c31_shift_out_of_range str spline s.core h.wf p hm x hsh f hf hfar]
  rfl

/-- The script up to the scaling. -/
theorem scaleScript_eq (ft : FloatText) (str : ℚ → PyStr)
    (spline : List ℚ → List ℚ → Except PyErr (ℚ → ℚ)) (isdir : PyStr → Bool) {disk : Disk}
    {file : PyStr} {s : FullSpec} (h : Holds ft disk file s) {dest : Option PyStr} {u out : PyStr}
    {x : ℚ} (hu : NumText (str x) u)
    (ho : InDest isdir dest file (lit "_" ++ u ++ lit "sc.hdf5") out)
    {par : PyStr} (hd : par ≠ []) (hx : 0 < x) :
    scaleScript ft str spline isdir disk file par (some x) dest =
      match s.core.scaleAxis str spline par x with
      | .error e => .stopped disk (.raised e)
      | .ok r => dumpNp disk out s r := by
  have hfile : file ≠ [] := by
    rcases ho with ⟨_, _, _, _, _, _, _, _, hp, _⟩ | ⟨_, _, _, _, hp, _⟩ <;> exact isPath_ne_nil hp
  obtain ⟨dir, hdir, rfl⟩ := scaledDir_out ho
  unfold scaleScript
  rw [if_neg hfile]
  dsimp only
  rw [if_neg (by simp [hx.ne', hd]), hdir]
  dsimp only
  rw [(c30_factor 1 x).1 hx]
  dsimp only
  rw [loadAt_holds h]
  dsimp only
  rw [hu.unique (shortText_spec _)]
  simp only [List.append_assoc]
  cases s.core.scaleAxis str spline par x <;> rfl

/-- **C113, scaling.** The same for `dump_scaled.py` and a positive factor; the output is in the
directory asked for or beside the input, and its name has the factor before `sc.hdf5`. -/
theorem c113_scale (ft : FloatText) (str : ℚ → PyStr)
    (spline : List ℚ → List ℚ → Except PyErr (ℚ → ℚ)) (isdir : PyStr → Bool) (disk : Disk)
    (file : PyStr) (s : FullSpec) (b : PyStr) (h : Input ft disk file s b) (dest : Option PyStr)
    (u out : PyStr) (x : ℚ) (hu : NumText (str x) u)
    (ho : InDest isdir dest file (lit "_" ++ u ++ lit "sc.hdf5") out)
    (k : ℕ) (p : SPar) (hk : s.core.cfg[k]? = some p) (hpn : p.name ≠ []) (hx : 0 < x)
    (f : ℚ → ℚ) (hf : s.core.interpolate1d spline p.name = .ok f) (disk' : Disk)
    (hdone : scaleScript ft str spline isdir disk file p.name (some x) dest = .done disk') :
    ∃ t, OnlyAt out disk disk' ∧ Input ft disk' out t b ∧ t.data.sum = s.data.sum ∧
      t.core.cfg = s.core.cfg ∧ t.numDecays = s.numDecays ∧ t.rawEvents = s.rawEvents ∧
      t.name = s.name ++ lit "_sf" ++ str x ∧ SameLabels b s t ∧
      ∃ C, ∀ i < p.bins.toNat, axisTotal t.data k i = 0 ∨
        ∃ c, p.low ≤ p.centre i / x ∧ p.centre i / x < p.high ∧
          ReadAt p (p.centre i / x) c ∧ 0 < f c ∧ axisTotal t.data k i = C * f c := by
  rw [scaleScript_eq ft str spline isdir h.holds hu ho hpn hx] at hdone
  rcases hr : s.core.scaleAxis str spline p.name x with e | r
  · rw [hr] at hdone; cases hdone
  · rw [hr] at hdone
    dsimp only at hdone
    obtain ⟨c, t, rfl, h1, h2, h3, h4⟩ := dumpNp_done h hdone (by
      rintro c rfl
      have := c30_scale str spline s.core h.wf k p hk x hx f hf c hr
      exact ⟨this.2.1, this.2.2.1⟩)
    obtain ⟨r1, r2, r3, r4, r5, r6⟩ := c30_scale str spline s.core h.wf k p hk x hx f hf c hr
    have hdat : t.data = c.data := congrArg Spectrum.data h3
    refine ⟨t, h1, h2, by rw [hdat]; exact r1, by rw [h3]; exact r2.1,
      (congrArg Spectrum.numDecays h3).trans r2.2.1,
      (congrArg Spectrum.rawEvents h3).trans r2.2.2.1, (congrArg Spectrum.name h3).trans r4, h4, ?_⟩
    rw [hdat]; exact r6

/-- **C113, the output of a scaling**, as for a shift. -/
theorem c113_scale_saved (ft : FloatText) (str : ℚ → PyStr)
    (spline : List ℚ → List ℚ → Except PyErr (ℚ → ℚ)) (isdir : PyStr → Bool) (disk : Disk)
    (file : PyStr) (s : FullSpec) (b : PyStr) (h : Input ft disk file s b) (dest : Option PyStr)
    (u out : PyStr) (x : ℚ) (hu : NumText (str x) u)
    (ho : InDest isdir dest file (lit "_" ++ u ++ lit "sc.hdf5") out)
    (k : ℕ) (p : SPar) (hk : s.core.cfg[k]? = some p) (hpn : p.name ≠ []) (hx : 0 < x)
    (f : ℚ → ℚ) (hf : s.core.interpolate1d spline p.name = .ok f) (hpos : ∀ x, 0 < f x)
    (hd : ∀ i < p.bins.toNat, 0 < axisTotal s.data k i)
    (hw6 : 2 / 10 ^ 6 ≤ (p.high - p.low) / p.bins)
    (hin : ∃ i < p.bins.toNat, p.low ≤ p.centre i / x ∧ p.centre i / x < p.high) :
    ∃ disk', scaleScript ft str spline isdir disk file p.name (some x) dest = .done disk' := by
  obtain ⟨c, hc⟩ := c31_scale_finite_partial str spline s.core h.wf k p hk x hx f hf hpos hd hw6 hin
  have r := c30_scale str spline s.core h.wf k p hk x hx f hf c hc
  obtain ⟨disk', t, h1, -⟩ := h.saved out c (by rw [r.2.1.1]) (by rw [r.2.2.1]; rfl)
  refine ⟨disk', ?_⟩
  rw [scaleScript_eq ft str spline isdir h.holds hu ho hpn hx, hc]
  exact h1

theorem getPar_unknown {s : Spectrum} {par : PyStr} (h : ∀ p ∈ s.cfg, p.name ≠ par) :
    ∃ e, s.getPar par = .error e := by
  unfold Spectrum.getPar
  rw [List.find?_eq_none.2 (by simpa using h)]
  exact ⟨_, rfl⟩

/-- **C113, refusals.** Without a file, a value or a parameter, for a value of zero, a parameter
that is not an axis, a factor that is not positive and a directory that does not exist, nothing is
written. -/
theorem c113_refused (ft : FloatText) (str : ℚ → PyStr)
    (spline : List ℚ → List ℚ → Except PyErr (ℚ → ℚ)) (isdir : PyStr → Bool) (disk : Disk)
    (file par : PyStr) (x : Option ℚ) (dest : Option PyStr) :
    ((file = [] ∨ disk file = none ∨ par = [] ∨ x = none ∨ x = some 0 ∨
        ∃ s, Holds ft disk file s ∧ ∀ p ∈ s.core.cfg, p.name ≠ par) →
      (∃ why, shiftScript ft str spline disk file par x = .stopped disk why) ∧
      ∃ why, scaleScript ft str spline isdir disk file par x dest = .stopped disk why) ∧
    (((∃ y, x = some y ∧ y < 0) ∨ ∃ d, dest = some d ∧ d ≠ [] ∧ isdir d = false) →
      ∃ why, scaleScript ft str spline isdir disk file par x dest = .stopped disk why) := by
  have hshift : (file = [] ∨ disk file = none ∨ par = [] ∨ x = none ∨ x = some 0 ∨
        ∃ s, Holds ft disk file s ∧ ∀ p ∈ s.core.cfg, p.name ≠ par) →
      ∃ why, shiftScript ft str spline disk file par x = .stopped disk why := by
    intro h
    unfold shiftScript
    by_cases hf : file = []
    · rw [if_pos hf]; exact ⟨_, rfl⟩
    rw [if_neg hf]
    cases x with
    | none => exact ⟨_, rfl⟩
    | some y =>
      dsimp only
      by_cases h0 : y = 0 ∨ par = []
      · rw [if_pos h0]; exact ⟨_, rfl⟩
      rw [if_neg h0]
      rcases h with h | h | h | h | h | ⟨s, hs, hpar⟩
      · exact absurd h hf
      · unfold loadAt; rw [h]; exact ⟨_, rfl⟩
      · exact absurd (.inr h) h0
      · cases h
      · exact absurd (.inl (Option.some.inj h)) h0
      · rw [loadAt_holds hs]
        obtain ⟨e, he⟩ := getPar_unknown hpar
        have : s.core.shift str spline par y = .error e := by
          unfold Spectrum.shift
          rw [he]; rfl
        dsimp only
        rw [this]
        exact ⟨_, rfl⟩
  have hscale : (file = [] ∨ disk file = none ∨ par = [] ∨ x = none ∨ x = some 0 ∨
        (∃ s, Holds ft disk file s ∧ ∀ p ∈ s.core.cfg, p.name ≠ par) ∨
        (∃ y, x = some y ∧ y < 0) ∨ ∃ d, dest = some d ∧ d ≠ [] ∧ isdir d = false) →
      ∃ why, scaleScript ft str spline isdir disk file par x dest = .stopped disk why := by
    intro h
    unfold scaleScript
    by_cases hf : file = []
    · rw [if_pos hf]; exact ⟨_, rfl⟩
    rw [if_neg hf]
    cases x with
    | none => exact ⟨_, rfl⟩
    | some y =>
      dsimp only
      by_cases h0 : y = 0 ∨ par = []
      · rw [if_pos h0]; exact ⟨_, rfl⟩
      rw [if_neg h0]
      rcases hd : scaledDir isdir dest file with e | dir
      · exact ⟨_, rfl⟩
      dsimp only
      rcases lt_or_ge 0 y with hy | hy
      · rw [(c30_factor 1 y).1 hy]
        dsimp only
        rcases h with h | h | h | h | h | ⟨s, hs, hpar⟩ | ⟨z, hz, hz0⟩ | ⟨d, rfl, hd0, hdd⟩
        · exact absurd h hf
        · unfold loadAt; rw [h]; exact ⟨_, rfl⟩
        · exact absurd (.inr h) h0
        · cases h
        · exact absurd (.inl (Option.some.inj h)) h0
        · rw [loadAt_holds hs]
          obtain ⟨e, he⟩ := getPar_unknown hpar
          have : s.core.scaleAxis str spline par y = .error e := by
            unfold Spectrum.scaleAxis Spectrum.interpolate1d
            rw [he]; rfl
          dsimp only
          rw [this]
          exact ⟨_, rfl⟩
        · rw [← Option.some.inj hz] at hz0
          linarith
        · cases d with
          | nil => exact absurd rfl hd0
          | cons c d =>
            unfold scaledDir at hd
            dsimp only at hd
            rw [hdd] at hd
            cases hd
      · rw [(c30_factor 1 y).2 hy]; exact ⟨_, rfl⟩
  refine ⟨fun h => ⟨hshift h, hscale ?_⟩, fun h => hscale ?_⟩
  · rcases h with h | h | h | h | h | h <;> simp [h]
  · rcases h with h | h <;> simp [h]

/-- The hypotheses are met by a shift of one energy bin, one of a quarter, one of 100.25 and a
scaling by 1.5, with a constant interpolation. -/
example (ft : FloatText) : ∃ disk s, Input ft disk (lit "/data/te.hdf5") s (lit "Te130_2n2b") ∧
    NonNeg s.data ∧ s.core.cfg[0]? = some ⟨lit "energy_mc", 0, 10, 10⟩ ∧
    Beside (lit "/data/te.hdf5") (lit "_shifted.hdf5") (lit "/data/te_shifted.hdf5") ∧
    InDest (fun _ => true) (some (lit "/out")) (lit "/data/te.hdf5")
      (lit "_" ++ lit "1.5" ++ lit "sc.hdf5") (lit "/out/te_1.5sc.hdf5") ∧
    NumText (lit "1.5") (lit "1.5") ∧
    (∀ f : ℚ → ℚ, s.core.interpolate1d (fun _ _ => .ok f) (lit "energy_mc") = .ok f) ∧
    (∀ i < 10, 0 < axisTotal s.data 0 i) ∧
    (∃ disk', shiftScript ft (fun _ => []) (fun _ _ => .ok fun _ => 1) disk (lit "/data/te.hdf5")
      (lit "energy_mc") (some (1 / 4)) = .done disk') ∧
    (∃ disk', scaleScript ft (fun _ => lit "1.5") (fun _ _ => .ok fun _ => 1) (fun _ => true) disk
      (lit "/data/te.hdf5") (lit "energy_mc") (some (3 / 2)) (some (lit "/out")) = .done disk') ∧
    shiftScript ft (fun _ => []) (fun _ _ => .ok fun _ => 1) disk (lit "/data/te.hdf5")
      (lit "energy_mc") (some (401 / 4)) = .notFinite := by
  obtain ⟨disk, s, h1, h2⟩ := Ex.input ft (lit "/data/te.hdf5")
  have hdat : s.data = Ex.filledSpec.data := congrArg Spectrum.data h2
  have hk : s.core.cfg[0]? = some ⟨lit "energy_mc", 0, 10, 10⟩ := by rw [h2]; rfl
  have hmem := List.mem_of_getElem? hk
  have ho : Beside (lit "/data/te.hdf5") (lit "_shifted.hdf5") (lit "/data/te_shifted.hdf5") :=
    ⟨lit "/data/", lit "te", lit "hdf5",
      ⟨by decide, .inr (by decide), by decide, by decide⟩, by decide⟩
  have ho' : InDest (fun _ => true) (some (lit "/out")) (lit "/data/te.hdf5")
      (lit "_" ++ lit "1.5" ++ lit "sc.hdf5") (lit "/out/te_1.5sc.hdf5") :=
    .inl ⟨lit "/out", lit "/out/", lit "/data/", lit "te", lit "hdf5", rfl, by decide, rfl,
      ⟨by decide, .inr (by decide), by decide, by decide⟩, ⟨'t', by decide⟩,
      .inr ⟨by decide, by decide⟩, by decide⟩
  have hu : NumText (lit "1.5") (lit "1.5") := .inr ⟨by decide, rfl⟩
  have hi : ∀ f : ℚ → ℚ, s.core.interpolate1d (fun _ _ => .ok f) (lit "energy_mc") = .ok f :=
    fun f => interpolate1d_const h1.wf hmem f
  have hd : ∀ i < 10, 0 < axisTotal s.data 0 i := by
    intro i hi
    rw [hdat, axisTotal_eq (n := 10) _ rfl, if_pos hi]
    simp only [Ex.filledSpec, List.eraseIdx, sumIdx, Finset.sum_range_succ, Finset.sum_range_zero]
    norm_num
  have hmult : ∀ (x : ℚ) (n : ℤ), n + 1 / 10 ^ 8 < x → x < n + 1 → ∀ m : ℤ,
      m * (((10 : ℚ) - 0) / ((10 : ℤ) : ℚ)) ≤ x →
      1 / 10 ^ 8 < x - m * (((10 : ℚ) - 0) / ((10 : ℤ) : ℚ)) := by
    intro x n hx1 hx2 m hm
    have e : (((10 : ℚ) - 0) / ((10 : ℤ) : ℚ)) = 1 := by norm_num
    rw [e, mul_one] at hm ⊢
    have h3 : (m : ℚ) < ((n + 1 : ℤ) : ℚ) := by push_cast; linarith
    have h4 : m < n + 1 := by exact_mod_cast h3
    have h5 : (m : ℚ) ≤ n := by exact_mod_cast (by omega : m ≤ n)
    linarith
  refine ⟨disk, s, h1, ?_, hk, ho, ho', hu, hi, hd, ?_, ?_, ?_⟩
  · intro idx _
    rw [hdat]
    exact zero_le_one
  · exact c113_shift_saved ft _ _ disk _ s _ h1 _ ho 0 ⟨lit "energy_mc", 0, 10, 10⟩ hk (by decide)
      (1 / 4) (hmult _ 0 (by norm_num) (by norm_num)) _ (hi _) (fun _ => one_pos) hd
      (by norm_num) ⟨3, by decide, by norm_num [SPar.centre, SPar.edge]⟩
  · exact c113_scale_saved ft (fun _ => lit "1.5") _ _ disk _ s _ h1 _ _ _ (3 / 2) hu ho' 0
      ⟨lit "energy_mc", 0, 10, 10⟩ hk (by decide) (by norm_num) _ (hi _) (fun _ => one_pos) hd
      (by norm_num) ⟨3, by decide, by norm_num [SPar.centre, SPar.edge]⟩
  · exact c113_shift_negation ft _ _ disk _ s _ h1 _ ho ⟨lit "energy_mc", 0, 10, 10⟩ hmem (by decide)
      (401 / 4) (hmult _ 100 (by norm_num) (by norm_num)) _ (hi _)
      (by norm_num [abs_of_pos])

end Verif
