import Verif.Lemmas.Sharing
import Verif.Props.FitFixed
import Verif.Props.History

/-! # C141: spectra of the same program are independent of each other -/

namespace Verif

theorem specAfter_eq (prog : List Stmt) (i : ℕ) : specAfter prog i = (heapAfter prog).view i := rfl

theorem SHeap.view_eq_some {h : SHeap} {i : ℕ} {s : Spectrum} :
    h.view i = some s ↔ ∃ o a, h.objs i = some o ∧ h.configs o.config = some a ∧
      s = ⟨o.name, a, o.data, o.numDecays, o.rawEvents, h.roiDicts o.roiDict⟩ := by
  unfold SHeap.view
  constructor
  · intro e
    split at e
    · cases e
    · rename_i o ho
      split at e
      · cases e
      · rename_i a ha
        cases e; exact ⟨o, a, ho, ha, rfl⟩
  · rintro ⟨o, a, ho, ha, rfl⟩
    simp only [ho, ha]

/-- A statement that is not a call on `i` leaves the object `i` alone. -/
theorem step_objs {prog : List Stmt} {i : ℕ} {o : SpecObj} {st : Stmt}
    (ho : (heapAfter prog).objs i = some o) (hst : ∀ m, st ≠ .call i m) :
    (heapAfter (prog ++ [st])).objs i = some o := by
  have H := heapInv prog
  rw [heapAfter_snoc]
  generalize heapAfter prog = h at ho H
  have hi : i ≠ prog.length := Nat.ne_of_lt (H.obj_lt i o ho)
  have hput : ∀ (h' : SHeap) c r s, h'.objs i = some o → (h'.put prog.length c r s).objs i = some o := by
    intro h' c r s e
    simp only [SHeap.put, Function.update_apply, if_neg hi, e]
  cases st with
  | config axes => exact ho
  | create name d c =>
    simp only [SHeap.step]
    split
    · exact ho
    · exact hput _ _ _ _ ho
  | createLike name d j =>
    simp only [SHeap.step]
    split
    · exact ho
    · split
      · exact ho
      · exact hput _ _ _ _ ho
  | load s => exact hput _ _ _ _ ho
  | make j m =>
    simp only [SHeap.step]
    split
    · split
      · exact hput _ _ _ _ ho
      · exact ho
    · exact ho
  | call j m =>
    have hj : i ≠ j := fun e => hst m (by rw [e])
    simp only [SHeap.step]
    split
    · split
      · simp only [SHeap.write, Function.update_apply, if_neg hj, ho]
      · exact ho
    · exact ho

/-- A statement that is neither a call on `i` nor changes the axes of a spectrum with the same
configuration leaves the spectrum `i` alone. -/
theorem step_view {prog : List Stmt} {i : ℕ} {s : Spectrum} {st : Stmt}
    (hs : specAfter prog i = some s) (hst : ∀ m, st ≠ .call i m)
    (hax : ∀ j m, st = .call j m → m.ChangesAxes → ¬ Related prog i j) :
    specAfter (prog ++ [st]) i = some s := by
  rw [specAfter_eq] at hs ⊢
  obtain ⟨o, a, ho, ha, rfl⟩ := SHeap.view_eq_some.1 hs
  have ho' := step_objs ho hst
  refine SHeap.view_eq_some.2 ⟨o, a, ho', ?_⟩
  clear ho'
  have H := heapInv prog
  rw [heapAfter_snoc]
  generalize heapAfter prog = h at ho ha H
  have hc : o.config ≠ prog.length := Nat.ne_of_lt (H.cfg_lt _ _ ha)
  have hr : o.roiDict ≠ prog.length := Nat.ne_of_lt (H.roi_lt i o ho)
  suffices hh : (h.step prog.length st).configs o.config = h.configs o.config ∧
      (h.step prog.length st).roiDicts o.roiDict = h.roiDicts o.roiDict by
    rw [hh.1, hh.2]; exact ⟨ha, rfl⟩
  cases st with
  | config axes => exact ⟨by simp only [SHeap.step, Function.update_apply, if_neg hc], rfl⟩
  | create name d c =>
    simp only [SHeap.step]
    split
    · exact ⟨rfl, rfl⟩
    · exact ⟨rfl, by simp only [SHeap.put, Function.update_apply, if_neg hr]⟩
  | createLike name d j =>
    simp only [SHeap.step]
    split
    · exact ⟨rfl, rfl⟩
    · split
      · exact ⟨rfl, rfl⟩
      · exact ⟨rfl, by simp only [SHeap.put, Function.update_apply, if_neg hr]⟩
  | load s => exact ⟨by simp only [SHeap.step, SHeap.put, Function.update_apply, if_neg hc],
      by simp only [SHeap.step, SHeap.put, Function.update_apply, if_neg hr]⟩
  | make j m =>
    simp only [SHeap.step]
    split
    · split <;> exact ⟨rfl, rfl⟩
    · exact ⟨rfl, rfl⟩
  | call j m =>
    simp only [SHeap.step]
    split
    · rename_i q t hq ht
      split
      · rename_i r hr'
        simp only [SHeap.write, Function.update_apply]
        obtain ⟨q', b, hq', hb, rfl⟩ := SHeap.view_eq_some.1 ht
        rw [hq] at hq'
        cases hq'
        by_cases hm : m.ChangesAxes
        · have hrel : o.config ≠ q.config := by
            intro e
            exact hax j m rfl hm ⟨q.config, e ▸ H.uses i o ho, H.uses j q hq⟩
          have hrel2 : o.roiDict ≠ q.roiDict := fun e => hrel (H.roi_cfg i j o q ho hq e)
          exact ⟨if_neg hrel, if_neg hrel2⟩
        · obtain ⟨k1, k2⟩ := Method.outcome_keeps hm hr'
          rw [k1, k2]
          constructor
          · split
            · rename_i e; rw [e, hb]
            · rfl
          · split
            · rename_i e; rw [e]
            · rfl
      · exact ⟨rfl, rfl⟩
    · exact ⟨rfl, rfl⟩

/-- **C141, what a program makes.** The spectrum that a smearing, a shift or a scaling makes is the
one that the theorems about these functions describe, and a method changes its spectrum as the
theorems about the method say, whatever else the program has made. -/
theorem c141_values (prog : List Stmt) (i : ℕ) (s : Spectrum) (hs : specAfter prog i = some s) :
    (∀ m t, m.run s = .ok (.finite t) →
      specAfter (prog ++ [.make i m]) prog.length = some t ∧
      specAfter (prog ++ [.make i m]) i = some s) ∧
    (∀ m r, m.outcome (specAfter prog) s = some r →
      specAfter (prog ++ [.call i m]) i = some r.st) ∧
    ∀ u, specAfter (prog ++ [.load u]) prog.length = some u := by
  refine ⟨fun m t hm => ⟨?_, step_view hs (fun m => (by simp)) (fun j m => (by simp))⟩, ?_, ?_⟩
  · obtain ⟨k1, k2⟩ := Making.run_keeps hm
    rw [specAfter_eq] at hs ⊢
    rw [heapAfter_snoc]
    have hs' := hs
    obtain ⟨o, a, ho, ha, rfl⟩ := SHeap.view_eq_some.1 hs
    simp only [SHeap.step, ho, hs', hm]
    refine SHeap.view_eq_some.2 ⟨⟨t.name, o.config, o.roiDict, t.data, t.numDecays, t.rawEvents⟩, a,
      by simp only [SHeap.put, Function.update_self], ha, ?_⟩
    simp only [SHeap.put] at k1 k2 ⊢
    rw [← k1, ← k2]
  · intro m r hr
    rw [specAfter_eq] at hs ⊢
    rw [heapAfter_snoc]
    have hs' := hs
    obtain ⟨o, a, ho, ha, rfl⟩ := SHeap.view_eq_some.1 hs
    have hr' : m.outcome (heapAfter prog).view _ = some r := hr
    simp only [SHeap.step, ho, hs', hr']
    refine SHeap.view_eq_some.2 ⟨⟨r.st.name, o.config, o.roiDict, r.st.data, r.st.numDecays,
      r.st.rawEvents⟩, r.st.cfg, by simp only [SHeap.write, Function.update_self],
      by simp only [SHeap.write, Function.update_self], ?_⟩
    simp only [SHeap.write, Function.update_self]
  · intro u
    rw [specAfter_eq, heapAfter_snoc]
    simp only [SHeap.step]
    refine SHeap.view_eq_some.2 ⟨⟨u.name, prog.length, prog.length, u.data, u.numDecays,
      u.rawEvents⟩, u.cfg, by simp only [SHeap.put, Function.update_self],
      by simp only [SHeap.put, Function.update_self], ?_⟩
    simp only [SHeap.put, Function.update_self]

/-- **C141, contents.** Whatever a program does with other spectra, also with those made from this
one and with the one that this one was made from: the histogram, the name, the number of decays
and the number of events of a spectrum only change by calls on it. -/
theorem c141_contents_partial (prog more : List Stmt) (i : ℕ) (s : Spectrum)
    (hs : specAfter prog i = some s) (hm : ∀ m, .call i m ∉ more) :
    ∃ s', specAfter (prog ++ more) i = some s' ∧ s'.data = s.data ∧ s'.name = s.name ∧
      s'.numDecays = s.numDecays ∧ s'.rawEvents = s.rawEvents := by
  obtain ⟨o, a, ho, ha, rfl⟩ := SHeap.view_eq_some.1 ((specAfter_eq prog i).symm.trans hs)
  have key : (heapAfter (prog ++ more)).objs i = some o := by
    induction more using List.reverseRecOn with
    | nil => rwa [List.append_nil]
    | append_singleton more st ih =>
      rw [← List.append_assoc]
      refine step_objs (ih fun m h => hm m (List.mem_append_left _ h)) ?_
      rintro m rfl
      exact hm m (by simp)
  obtain ⟨b, hb⟩ := (heapInv (prog ++ more)).cfg_ex i o key
  exact ⟨_, SHeap.view_eq_some.2 ⟨o, b, key, hb, rfl⟩, rfl, rfl, rfl, rfl⟩

/-- **C141, spectra with their own configuration.** A spectrum is left entirely alone by statements
that are not calls on it, as long as the axes of no spectrum with the same configuration are
changed. In particular a spectrum that was loaded from a file is independent of all spectra that
were not made from it. -/
theorem c141_separate_partial (prog more : List Stmt) (i : ℕ) (s : Spectrum)
    (hs : specAfter prog i = some s) (hm : ∀ m, .call i m ∉ more)
    (hax : ∀ j m, .call j m ∈ more → m.ChangesAxes → ¬ Related (prog ++ more) i j) :
    specAfter (prog ++ more) i = some s := by
  induction more using List.reverseRecOn with
  | nil => rwa [List.append_nil]
  | append_singleton more st ih =>
    have hrel : ∀ {j}, Related (prog ++ more) i j → Related (prog ++ (more ++ [st])) i j := by
      rintro j ⟨c, h1, h2⟩
      rw [← List.append_assoc]
      exact ⟨c, h1.snoc st, h2.snoc st⟩
    rw [← List.append_assoc]
    refine step_view (ih (fun m h => hm m (List.mem_append_left _ h)) fun j m h hc hr =>
      hax j m (List.mem_append_left _ h) hc (hrel hr)) ?_ ?_
    · rintro m rfl
      exact hm m (by simp)
    · rintro j m rfl hc hr
      exact hax j m (by simp) hc (hrel hr)

/-! ### what goes wrong -/

theorem rebinLoop_names (cfg : List SPar) (ns : List ℕ) :
    (Spectrum.rebinLoop cfg ns).1.map SPar.name = cfg.map SPar.name := by
  induction cfg generalizing ns with
  | nil => cases ns <;> rfl
  | cons p cfg ih =>
    cases ns with
    | nil => rfl
    | cons n ns =>
      unfold Spectrum.rebinLoop
      split
      · rfl
      · split
        · rfl
        · simp only [List.map_cons, ih]

theorem outcome_names {others : ℕ → Option Spectrum} {s : Spectrum} {m : Method}
    {r : Outcome}
    (hr : m.outcome others s = some r) : r.st.cfg.map SPar.name = s.cfg.map SPar.name := by
  by_cases hm : m.ChangesAxes
  · cases m with
    | rebin ns =>
      cases hr
      unfold Spectrum.rebin
      split
      · rfl
      · dsimp only
        split
        · exact rebinLoop_names _ _
        · split <;> exact rebinLoop_names _ _
    | shrink kw => cases hr; exact shrink_names _ _
    | cut kw =>
      cases hr
      unfold Spectrum.cut
      dsimp only
      split
      · exact shrink_names _ _
      · split <;> exact shrink_names _ _
    | roi l u d =>
      cases hr
      unfold Spectrum.shrinkToRoi
      dsimp only
      split
      · exact shrink_names _ _
      · split
        · exact shrink_names _ _
        · split <;> exact shrink_names _ _
    | _ => exact hm.elim
  · rw [(Method.outcome_keeps hm hr).1]

/-- **C141, negation.** Two spectra with the same configuration, for example a spectrum and a
shifted, scaled or smeared version of it, always have the same axes. A method that changes the
axes of one changes those of the other, which keeps its contents: if a number of bins changes, its
histogram no longer has the shape that its axes describe, and it cannot be added to an identical
copy of what it was before. -/
theorem c141_shared_negation (prog : List Stmt) (i j : ℕ) (s t : Spectrum) (hij : i ≠ j)
    (hs : specAfter prog i = some s) (ht : specAfter prog j = some t) (hrel : Related prog i j) :
    s.cfg = t.cfg ∧
    ∀ m r, m.outcome (specAfter prog) t = some r →
      ∃ s', specAfter (prog ++ [.call j m]) i = some s' ∧ s'.cfg = r.st.cfg ∧ s'.data = s.data ∧
        (s.WF → r.st.cfg.map SPar.bins ≠ t.cfg.map SPar.bins →
          ¬ ShapeMatches s' ∧ (s'.add s).err ≠ none) := by
  have hs1 := (specAfter_eq prog i).symm.trans hs
  have ht1 := (specAfter_eq prog j).symm.trans ht
  have H := heapInv prog
  obtain ⟨o, a, ho, ha, rfl⟩ := SHeap.view_eq_some.1 hs1
  obtain ⟨q, b, hq, hb, rfl⟩ := SHeap.view_eq_some.1 ht1
  obtain ⟨c, hc1, hc2⟩ := hrel
  have e1 := (H.uses i o ho).unique hc1
  have e2 := (H.uses j q hq).unique hc2
  rw [e1] at ha
  rw [e2] at hb
  obtain rfl : a = b := by rw [ha] at hb; cases hb; rfl
  refine ⟨rfl, fun m r hr => ?_⟩
  have hobj := step_objs (st := .call j m) ho (by
    intro m' e; injection e with e; exact hij e.symm)
  have hcfg : (heapAfter (prog ++ [.call j m])).configs c = some r.st.cfg := by
    rw [heapAfter_snoc]
    have hr' : m.outcome (heapAfter prog).view _ = some r := hr
    simp only [SHeap.step, hq, ht1, hr', SHeap.write, e2, Function.update_self]
  refine ⟨_, SHeap.view_eq_some.2 ⟨o, r.st.cfg, hobj, by rw [e1]; exact hcfg, rfl⟩, rfl, rfl, ?_⟩
  intro hwf hne
  constructor
  · intro hsm
    apply hne
    have h1 := hwf.shape
    unfold ShapeMatches at hsm
    simp only at h1 hsm ⊢
    rw [← hsm, h1]
  · have hn := outcome_names hr
    simp only at hn hne
    rw [Ne, c05_add_accepted_iff _ _ hwf.names (fun n => by simp only [hn])]
    rintro ⟨-, hclose⟩
    apply hne
    simp only at hclose
    have hlen : r.st.cfg.length = a.length := by
      have := congrArg List.length hn
      simpa using this
    apply List.ext_getElem (by simp [hlen])
    intro k h1 h2
    simp only [List.getElem_map]
    simp only [List.length_map] at h1 h2
    refine (hclose _ (List.getElem_mem h1) _ (List.getElem_mem h2) ?_).2.2
    have := congrArg (fun l : List PyStr => l[k]?) hn
    simp only [List.getElem?_map, List.getElem?_eq_getElem h1, List.getElem?_eq_getElem h2,
      Option.map_some, Option.some.injEq] at this
    exact this.symm

/-- Ten bins of energy with one event in each of the first three. -/
def Ex.plain : Spectrum :=
  { name := lit "a", cfg := [⟨lit "energy_mc", 0, 10, 10⟩],
    data := ⟨[10], fun idx => if idx.getD 0 0 < 3 then 1 else 0⟩, numDecays := 3, rawEvents := 3,
    rois := [] }

/-- `b = shifter.shift_by_bin(a, "energy_mc")` with a shift of one, `c = Spectra("c", 1,
a.get_config())` -/
def Ex.twoMore : List Stmt :=
  [.load Ex.plain, .make 0 (.shiftByBin (fun _ => []) (lit "energy_mc") 1),
    .createLike (lit "c") 1 0]

/-- `b.shrink(energy_mc_low=5)` -/
def Ex.shrinkB : Stmt := .call 1 (.shrink [(lit "energy_mc_low", 5)])

/-- `a.fill(energy_mc=7.5)` -/
def Ex.fillA : Stmt := .call 0 (.fill 1 [(lit "energy_mc", 15 / 2)])

/-- **C141, negation, an example.** An event of energy 7.5 is filled into the spectrum `a` after the
spectrum `b`, which was made by shifting `a`, has been cut at 5: it is counted in the third bin of
`a`, which is the one from 2 to 3, and not in the eighth. Without the cut of `b` it is counted in
the eighth. -/
theorem c141_wrong_bin_negation :
    ((specAfter (Ex.twoMore ++ [Ex.fillA]) 0).map fun s => (s.data.get [2], s.data.get [7])) =
      some (1, 1) ∧
    ((specAfter (Ex.twoMore ++ [Ex.shrinkB, Ex.fillA]) 0).map fun s =>
      (s.data.get [2], s.data.get [7])) = some (2, 0) := by
  decide +kernel

/-- The three spectra of the example are related, those of two files are not. -/
example : Related Ex.twoMore 0 1 ∧ Related Ex.twoMore 1 2 ∧
    ¬ Related [.load Ex.plain, .load Ex.plain] 0 1 := by
  have h0 : Uses Ex.twoMore 0 0 := .load rfl
  have h1 : Uses Ex.twoMore 0 1 := .make rfl h0
  have h2 : Uses Ex.twoMore 0 2 := .like rfl h0
  refine ⟨⟨0, h0, h1⟩, ⟨0, h1, h2⟩, ?_⟩
  rintro ⟨c, h, h'⟩
  have := h.unique (.load rfl)
  have := h'.unique (.load rfl)
  omega

/-- The hypotheses of `c141_shared_negation` are met by `a` and `b`: the cut changes the number of
bins from ten to five. -/
example : (specAfter Ex.twoMore 0).isSome ∧ (specAfter Ex.twoMore 1).isSome ∧
    (specAfter (Ex.twoMore ++ [Ex.shrinkB]) 1).map (fun t => t.cfg.map SPar.bins) = some [5] ∧
    (specAfter Ex.twoMore 1).map (fun t => t.cfg.map SPar.bins) = some [10] ∧
    (specAfter (Ex.twoMore ++ [Ex.shrinkB]) 0).map (fun t => t.data.shape) = some [10] := by
  decide +kernel

end Verif
