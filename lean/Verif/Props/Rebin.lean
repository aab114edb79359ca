import Verif.Lemmas.Rebin
import Verif.Spec.Examples
import Mathlib.Tactic.NormNum
import Mathlib.Tactic.IntervalCases

/-! # C13–C15: rebinning -/

namespace Verif

open Spectrum

theorem inB_div {L : List (ℕ × ℕ)} {full : List ℕ} (h : InB (L.map (fun p => p.1 * p.2)) full) :
    InB (L.map Prod.fst) (List.zipWith (· / ·) full (L.map Prod.snd)) := by
  induction L generalizing full with
  | nil => simp at h; subst h; simp
  | cons p L ih =>
    cases full with
    | nil => simp at h
    | cons x full =>
      simp only [List.map_cons, inB_cons_cons, List.zipWith_cons_cons] at h ⊢
      exact ⟨Nat.div_lt_of_lt_mul (by rw [Nat.mul_comm]; exact h.1), ih h.2⟩

theorem zipWith_div_pairs {L : List (ℕ × ℕ)} (hpos : ∀ p ∈ L, 0 < p.1) :
    List.zipWith (· / ·) (L.map (fun p => p.1 * p.2)) (L.map Prod.fst) = L.map Prod.snd := by
  induction L with
  | nil => rfl
  | cons p L ih =>
    simp only [List.map_cons, List.zipWith_cons_cons]
    rw [ih fun q hq => hpos q (by simp [hq]), Nat.mul_div_cancel_left _ (hpos p (by simp))]

theorem isRebin_sum {a b : NdArray ℚ} {L : List (ℕ × ℕ)}
    (hs : a.shape = L.map (fun p => p.1 * p.2)) (hpos : ∀ p ∈ L, 0 < p.1)
    (h : IsRebin a (L.map Prod.fst) b) : b.sum = a.sum := by
  obtain ⟨h1, h2⟩ := h
  unfold NdArray.sum
  rw [h1, sumIdx_congr h2, sumIdx_comm]
  refine sumIdx_congr fun full hfull => ?_
  have hb := inB_div (hs ▸ hfull)
  rw [hs, zipWith_div_pairs hpos]
  refine Eq.trans ?_ (sumIdx_single hb (a.get full))
  exact sumIdx_congr fun j _ => by simp only [eq_comm]

theorem rebin_of_dvd {s : Spectrum} (hs : s.WF) {ns : List ℕ}
    (h : List.Forall₂ (fun (p : SPar) (n : ℕ) => (n : ℤ) ∣ p.bins) s.cfg ns) :
    ∃ b, IsRebin s.data ns b ∧
      s.rebin ns = .ok { s with cfg := List.zipWith setBins s.cfg ns, data := b } ∧
      b.sum = s.data.sum := by
  have hpos : ∀ p ∈ s.cfg, 0 < p.bins := fun p hp => (hs.axes p hp).1
  have hl : ns.length = s.cfg.length := h.length_eq.symm
  obtain ⟨L, rfl, hL, hLpos⟩ := pairs_exist hpos hs.shape h
  obtain ⟨b, hb, hreb⟩ := rebinData_ok hL hLpos
  refine ⟨b, hreb, ?_, isRebin_sum hL hLpos hreb⟩
  have hnone := (rebinLoop_ok_iff hl hpos).2 h
  have hcfg := rebinLoop_cfg hl hnone
  unfold Spectrum.rebin
  rw [if_neg (by simpa using hl)]
  simp only [hnone, hb, hcfg]

theorem rebin_err_of_not_dvd {s : Spectrum} (hs : s.WF) {ns : List ℕ}
    (hl : ns.length = s.cfg.length)
    (h : ¬ List.Forall₂ (fun (p : SPar) (n : ℕ) => (n : ℤ) ∣ p.bins) s.cfg ns) :
    ∃ e, (rebinLoop s.cfg ns).2 = some e ∧
      s.rebin ns = .fail { s with cfg := (rebinLoop s.cfg ns).1 } e := by
  have hpos : ∀ p ∈ s.cfg, 0 < p.bins := fun p hp => (hs.axes p hp).1
  rw [← rebinLoop_ok_iff hl hpos] at h
  obtain ⟨e, he⟩ := Option.ne_none_iff_exists'.1 h
  refine ⟨e, he, ?_⟩
  unfold Spectrum.rebin
  rw [if_neg (by simpa using hl)]
  simp only [he]

/-- **C13.** A rebin is accepted exactly when there is one entry per parameter and it divides
the bin count of that parameter. It then merges whole blocks of cells (`IsRebin`), keeps
every range, records the new bin counts and conserves the total. -/
theorem c13_rebin (s : Spectrum) (hs : s.WF) (ns : List ℕ) :
    ((s.rebin ns).err = none ↔ ns.length = s.cfg.length ∧
      ∀ i (h1 : i < s.cfg.length) (h2 : i < ns.length), ((ns[i] : ℕ) : ℤ) ∣ s.cfg[i].bins) ∧
    ((s.rebin ns).err = none →
      IsRebin s.data ns (s.rebin ns).st.data ∧
      (s.rebin ns).st.cfg =
        List.zipWith (fun (p : SPar) (n : ℕ) => { p with bins := (n : ℤ) }) s.cfg ns ∧
      (s.rebin ns).st.sum = s.sum ∧
      (s.rebin ns).st.numDecays = s.numDecays ∧ (s.rebin ns).st.rawEvents = s.rawEvents ∧
      (s.rebin ns).st.name = s.name ∧ (s.rebin ns).st.rois = s.rois) := by
  have key : (s.rebin ns).err = none ↔
      List.Forall₂ (fun (p : SPar) (n : ℕ) => (n : ℤ) ∣ p.bins) s.cfg ns := by
    constructor
    · intro h
      by_contra hn
      by_cases hl : ns.length = s.cfg.length
      · obtain ⟨e, _, he⟩ := rebin_err_of_not_dvd hs hl hn
        rw [he] at h; cases h
      · unfold Spectrum.rebin at h
        rw [if_pos hl] at h; cases h
    · intro h
      obtain ⟨b, _, hb, _⟩ := rebin_of_dvd hs h
      rw [hb]; rfl
  refine ⟨?_, fun h => ?_⟩
  · rw [key, List.forall₂_iff_get]
    constructor
    · rintro ⟨h1, h2⟩
      exact ⟨h1.symm, fun i hi hi' => h2 i hi hi'⟩
    · rintro ⟨h1, h2⟩
      exact ⟨h1.symm, fun i hi hi' => h2 i hi hi'⟩
  · obtain ⟨b, h1, hb, h2⟩ := rebin_of_dvd hs (key.1 h)
    rw [hb]
    exact ⟨h1, rfl, h2, rfl, rfl, rfl, rfl⟩

example : Ex.spec.WF ∧ [5, 2].length = Ex.spec.cfg.length ∧
    ∀ i (h1 : i < Ex.spec.cfg.length) (h2 : i < [5, 2].length),
      (([5, 2][i] : ℕ) : ℤ) ∣ Ex.spec.cfg[i].bins := by
  refine ⟨Ex.spec_wf, rfl, ?_⟩
  intro i h1 h2
  simp at h2
  interval_cases i <;> simp [Ex.spec, Ex.energy, Ex.radial]

theorem rebin_err_none_iff {s : Spectrum} (hs : s.WF) {ns : List ℕ} :
    (s.rebin ns).err = none ↔
      List.Forall₂ (fun (p : SPar) (n : ℕ) => (n : ℤ) ∣ p.bins) s.cfg ns := by
  rw [(c13_rebin s hs ns).1, List.forall₂_iff_get]
  constructor
  · rintro ⟨h1, h2⟩
    exact ⟨h1.symm, fun i hi hi' => h2 i hi hi'⟩
  · rintro ⟨h1, h2⟩
    exact ⟨h1.symm, fun i hi hi' => h2 i hi hi'⟩

theorem rebin_wf {s : Spectrum} (hs : s.WF) {ns : List ℕ} (h : (s.rebin ns).err = none) :
    (s.rebin ns).st.WF := by
  have hd := (rebin_err_none_iff hs).1 h
  obtain ⟨⟨hshape, -⟩, hcfg, -⟩ := (c13_rebin s hs ns).2 h
  have hax := hs.axes
  refine ⟨?_, ?_, ?_⟩
  · rw [hcfg]
    clear hshape hcfg h
    revert hd hax
    generalize s.cfg = cfg
    intro hd hax
    induction hd with
    | nil => simp
    | @cons p n cfg ns h1 _ ih =>
      intro q hq
      simp only [List.zipWith_cons_cons, List.mem_cons] at hq
      rcases hq with rfl | hq
      · obtain ⟨a, b⟩ := hax p (by simp)
        refine ⟨?_, b⟩
        simp only
        have : n ≠ 0 := by rintro rfl; simp at h1; omega
        omega
      · exact ih (fun q hq => hax q (by simp [hq])) q hq
  · rw [hcfg, List.map_zipWith]
    have : List.zipWith (fun (p : SPar) (_ : ℕ) => p.name) s.cfg ns = s.cfg.map SPar.name := by
      clear hshape hcfg h hax
      revert hd
      generalize s.cfg = cfg
      intro hd
      induction hd with
      | nil => rfl
      | cons _ _ ih => simp [ih]
    rw [this]; exact hs.names
  · rw [hcfg, hshape, List.map_zipWith]
    clear hshape hcfg h hax
    revert hd
    generalize s.cfg = cfg
    intro hd
    induction hd with
    | nil => rfl
    | cons _ _ ih => simp [ih]

theorem triples_exist {shape ns ms : List ℕ} (hpos : ∀ c ∈ shape, 0 < c)
    (h1 : List.Forall₂ (fun c n => n ∣ c) shape ns)
    (h2 : List.Forall₂ (fun n m => m ∣ n) ns ms) :
    ∃ T : List (ℕ × ℕ × ℕ), shape = T.map (fun t => t.1 * t.2.1 * t.2.2) ∧
      ns = T.map (fun t => t.1 * t.2.1) ∧ ms = T.map (fun t => t.1) ∧
      ∀ t ∈ T, 0 < t.1 ∧ 0 < t.2.1 := by
  induction h1 generalizing ms with
  | nil => cases h2; exact ⟨[], rfl, rfl, rfl, by simp⟩
  | @cons c n shape ns hc _ ih =>
    cases h2 with
    | @cons _ m _ ms hm h2 =>
      obtain ⟨T, rfl, rfl, rfl, hT⟩ := ih (fun c hc => hpos c (by simp [hc])) h2
      obtain ⟨k2, rfl⟩ := hm
      obtain ⟨k1, rfl⟩ := hc
      have := hpos _ (List.mem_cons_self ..)
      have h12 : 0 < m * k2 := Nat.pos_of_mul_pos_right this
      refine ⟨(m, k2, k1) :: T, rfl, rfl, rfl, ?_⟩
      intro t ht
      rcases List.mem_cons.1 ht with rfl | ht
      · exact ⟨Nat.pos_of_mul_pos_right h12, Nat.pos_of_mul_pos_left h12⟩
      · exact hT t ht

theorem isRebin_comp {a b c c' : NdArray ℚ} {T : List (ℕ × ℕ × ℕ)}
    (hs : a.shape = T.map (fun t => t.1 * t.2.1 * t.2.2)) (hpos : ∀ t ∈ T, 0 < t.1 ∧ 0 < t.2.1)
    (h1 : IsRebin a (T.map (fun t => t.1 * t.2.1)) b) (h2 : IsRebin b (T.map (fun t => t.1)) c)
    (h3 : IsRebin a (T.map (fun t => t.1)) c') : c.Eqv c' := by
  obtain ⟨b1, b2⟩ := h1
  obtain ⟨c1, c2⟩ := h2
  obtain ⟨d1, d2⟩ := h3
  have k1 : List.zipWith (· / ·) a.shape (T.map (fun t => t.1 * t.2.1)) = T.map (fun t => t.2.2) := by
    rw [hs, List.zipWith_map, List.zipWith_self]
    refine List.map_congr_left fun t ht => ?_
    exact Nat.mul_div_cancel_left _ (Nat.mul_pos (hpos t ht).1 (hpos t ht).2)
  have k2 : List.zipWith (· / ·) b.shape (T.map (fun t => t.1)) = T.map (fun t => t.2.1) := by
    rw [b1, List.zipWith_map, List.zipWith_self]
    refine List.map_congr_left fun t ht => ?_
    exact Nat.mul_div_cancel_left _ (hpos t ht).1
  have k3 : List.zipWith (· / ·) a.shape (T.map (fun t => t.1)) =
      T.map (fun t => t.2.1 * t.2.2) := by
    rw [hs, List.zipWith_map, List.zipWith_self]
    refine List.map_congr_left fun t ht => ?_
    rw [Nat.mul_assoc]; exact Nat.mul_div_cancel_left _ (hpos t ht).1
  refine ⟨c1.trans d1.symm, fun idx hidx => ?_⟩
  rw [c1] at hidx
  rw [c2 idx hidx, d2 idx hidx, k2, k3]
  have e1 : sumIdx b.shape (fun full => if List.zipWith (· / ·) full (T.map (fun t => t.2.1)) = idx
      then b.get full else 0) =
      sumIdx (T.map (fun t => t.1 * t.2.1)) (fun y => sumIdx a.shape (fun x =>
        if y = List.zipWith (· / ·) x (T.map (fun t => t.2.2)) then
          (if List.zipWith (· / ·) y (T.map (fun t => t.2.1)) = idx then a.get x else 0)
        else 0)) := by
    rw [b1]
    refine sumIdx_congr fun y hy => ?_
    rw [b2 y hy, k1]
    by_cases hyi : List.zipWith (· / ·) y (T.map (fun t => t.2.1)) = idx
    · simp only [hyi, if_true]
      exact sumIdx_congr fun x _ => by simp only [eq_comm]
    · simp only [hyi, if_false, ite_self, sumIdx_zero]
  rw [e1, sumIdx_comm]
  refine sumIdx_congr fun x hx => ?_
  have hin : InB (T.map (fun t => t.1 * t.2.1)) (List.zipWith (· / ·) x (T.map (fun t => t.2.2))) := by
    have := inB_div (L := T.map (fun t => (t.1 * t.2.1, t.2.2))) (full := x) (by
      rw [List.map_map]; rw [hs] at hx; exact hx)
    simpa [List.map_map, Function.comp_def] using this
  rw [sumIdx_ite hin (fun y =>
    if List.zipWith (· / ·) y (T.map (fun t => t.2.1)) = idx then a.get x else 0)]
  have hdiv : ∀ (T : List (ℕ × ℕ × ℕ)) (x : List ℕ),
      List.zipWith (· / ·) (List.zipWith (· / ·) x (T.map (fun t => t.2.2)))
        (T.map (fun t => t.2.1)) = List.zipWith (· / ·) x (T.map (fun t => t.2.1 * t.2.2)) := by
    intro T
    induction T with
    | nil => simp
    | cons t T ih =>
      intro x
      cases x with
      | nil => simp
      | cons a x =>
        simp only [List.map_cons, List.zipWith_cons_cons, ih, Nat.div_div_eq_div_mul]
        rw [Nat.mul_comm]
  rw [hdiv]

theorem shape_pos {s : Spectrum} (hs : s.WF) : ∀ c ∈ s.data.shape, 0 < c := by
  intro c hc
  have h1 : (c : ℤ) ∈ s.data.shape.map (fun n : ℕ => (n : ℤ)) := List.mem_map.2 ⟨c, hc, rfl⟩
  rw [hs.shape] at h1
  obtain ⟨p, hp, hpc⟩ := List.mem_map.1 h1
  have := (hs.axes p hp).1
  omega

/-- **C14.** Rebinning in two accepted steps gives the same spectrum as rebinning directly to
the final binning, which is accepted too. -/
theorem c14_rebin_rebin (s : Spectrum) (hs : s.WF) (ns ms : List ℕ)
    (h1 : (s.rebin ns).err = none) (h2 : ((s.rebin ns).st.rebin ms).err = none) :
    (s.rebin ms).err = none ∧ (s.rebin ms).st.Eqv ((s.rebin ns).st.rebin ms).st := by
  have hwf := rebin_wf hs h1
  obtain ⟨r1, cf1, -, n1, e1, m1, o1⟩ := (c13_rebin s hs ns).2 h1
  obtain ⟨r2, cf2, -, n2, e2, m2, o2⟩ := (c13_rebin _ hwf ms).2 h2
  have d1 := (rebin_err_none_iff hs).1 h1
  have d2 := (rebin_err_none_iff hwf).1 h2
  have dn : List.Forall₂ (fun n m => m ∣ n) ns ms := by
    rw [cf1] at d2
    revert d1 d2
    generalize s.cfg = cfg
    intro d1 d2
    clear r2 cf2 n2 e2 m2 o2 r1 cf1 n1 e1 m1 o1 hwf h1 h2
    induction d1 generalizing ms with
    | nil => cases d2; exact .nil
    | cons _ _ ih =>
      cases d2 with
      | cons a b => exact .cons (by simpa using Int.natCast_dvd_natCast.1 a) (ih _ b)
  have dd : List.Forall₂ (fun (p : SPar) (m : ℕ) => (m : ℤ) ∣ p.bins) s.cfg ms := by
    clear r2 cf2 n2 e2 m2 o2 r1 cf1 n1 e1 m1 o1 hwf h1 h2 d2
    revert d1
    generalize s.cfg = cfg
    intro d1
    induction d1 generalizing ms with
    | nil => cases dn; exact .nil
    | cons a _ ih =>
      cases dn with
      | cons b c => exact .cons ((Int.natCast_dvd_natCast.2 b).trans a) (ih _ c)
  have h3 : (s.rebin ms).err = none := (rebin_err_none_iff hs).2 dd
  obtain ⟨r3, cf3, -, n3, e3, m3, o3⟩ := (c13_rebin s hs ms).2 h3
  refine ⟨h3, ⟨?_, ?_, ?_, ?_, ?_⟩, ?_⟩
  · rw [m2, m1, m3]
  · rw [cf2, cf1, cf3]
    revert d1
    generalize s.cfg = cfg
    intro d1
    clear * - d1 dn
    induction d1 generalizing ms with
    | nil => cases dn; rfl
    | cons _ _ ih => cases dn with
      | cons _ c => simp [ih _ c]
  · rw [n2, n1, n3]
  · rw [e2, e1, e3]
  · rw [o2, o1, o3]
  · have dsh : List.Forall₂ (fun c n => n ∣ c) s.data.shape ns := by
      have hsh := hs.shape
      revert d1 hsh
      generalize s.cfg = cfg
      generalize s.data.shape = shape
      intro d1 hsh
      clear * - d1 hsh
      induction d1 generalizing shape with
      | nil => cases shape with
        | nil => exact .nil
        | cons a b => simp at hsh
      | cons a _ ih => cases shape with
        | nil => simp at hsh
        | cons c shape =>
          simp only [List.map_cons, List.cons.injEq] at hsh
          rw [← hsh.1] at a
          exact .cons (Int.natCast_dvd_natCast.1 a) (ih _ hsh.2)
    obtain ⟨T, hT1, rfl, rfl, hT4⟩ := triples_exist (shape_pos hs) dsh dn
    exact (isRebin_comp hT1 hT4 r1 r2 r3).symm

/-- **C14, identity.** Rebinning to the present bin counts is accepted and changes nothing. -/
theorem c14_rebin_self (s : Spectrum) (hs : s.WF) :
    (s.rebin s.data.shape).err = none ∧ s.Eqv (s.rebin s.data.shape).st := by
  have hd : List.Forall₂ (fun (p : SPar) (n : ℕ) => (n : ℤ) ∣ p.bins) s.cfg s.data.shape := by
    have hsh := hs.shape
    revert hsh
    generalize s.cfg = cfg
    generalize s.data.shape = shape
    intro hsh
    induction cfg generalizing shape with
    | nil => cases shape with
      | nil => exact .nil
      | cons a b => simp at hsh
    | cons p cfg ih => cases shape with
      | nil => simp at hsh
      | cons c shape =>
        simp only [List.map_cons, List.cons.injEq] at hsh
        exact .cons (by rw [hsh.1]) (ih _ hsh.2)
  have h := (rebin_err_none_iff hs).2 hd
  obtain ⟨⟨r1, r2⟩, cf, -, n, e, m, o⟩ := (c13_rebin s hs s.data.shape).2 h
  refine ⟨h, ⟨m, ?_, n, e, o⟩, r1.symm, fun idx hidx => ?_⟩
  · rw [cf]
    have hsh := hs.shape
    revert hsh
    generalize s.cfg = cfg
    generalize s.data.shape = shape
    intro hsh
    clear * - hsh
    induction cfg generalizing shape with
    | nil => simp
    | cons p cfg ih => cases shape with
      | nil => simp at hsh
      | cons c shape =>
        simp only [List.map_cons, List.cons.injEq] at hsh
        simp [ih _ hsh.2, hsh.1]
  · rw [r2 idx hidx]
    have hpos := shape_pos hs
    have key : ∀ (shape x : List ℕ), (∀ c ∈ shape, 0 < c) → x.length = shape.length →
        List.zipWith (· / ·) x (List.zipWith (· / ·) shape shape) = x := by
      intro shape
      induction shape with
      | nil => intro x _ hx; simp at hx; subst hx; rfl
      | cons c shape ih =>
        intro x hp hx
        cases x with
        | nil => simp at hx
        | cons a x =>
          simp only [List.zipWith_cons_cons, Nat.div_self (hp c (by simp)), Nat.div_one]
          rw [ih x (fun c hc => hp c (by simp [hc])) (by simpa using hx)]
    rw [← sumIdx_ite hidx s.data.get]
    exact sumIdx_congr fun x hx => by rw [key _ _ hpos hx.length_eq]

example : (Ex.spec.rebin [10, 2]).err = none ∧
    ((Ex.spec.rebin [10, 2]).st.rebin [5, 1]).err = none := by
  have h1 : (Ex.spec.rebin [10, 2]).err = none := (rebin_err_none_iff Ex.spec_wf).2 (by
    simp [Ex.spec, Ex.energy, Ex.radial])
  refine ⟨h1, (rebin_err_none_iff (rebin_wf Ex.spec_wf h1)).2 ?_⟩
  rw [((c13_rebin _ Ex.spec_wf _).2 h1).2.1]
  simp [Ex.spec, Ex.energy, Ex.radial]

/-- **C15, negation.** A rejected rebin can leave the configuration changed: here the first
parameter is recorded with five bins although the data still have ten. -/
theorem c15_rejected_rebin_negation :
    ¬ ∀ (s : Spectrum) (ns : List ℕ), s.WF → (s.rebin ns).err ≠ none → (s.rebin ns).st = s := by
  intro h
  have h1 := h Ex.spec [5, 3] Ex.spec_wf (by
    rw [Ne, rebin_err_none_iff Ex.spec_wf]; simp [Ex.spec, Ex.energy, Ex.radial])
  have h2 := congrArg (fun t : Spectrum => t.cfg.map SPar.bins) h1
  have h3 : (Ex.spec.rebin [5, 3]).st.cfg.map SPar.bins = [5, 4] := by
    simp [Spectrum.rebin, rebinLoop, Ex.spec, Ex.energy, Ex.radial, Outcome.fail]
  simp only [h3] at h2
  simp [Ex.spec, Ex.energy, Ex.radial] at h2

/-- **C15, partial.** A rejected rebin never touches the data, the decay count, the raw events
or the regions; only the bin counts of the parameters before the first refused one are
changed. In particular nothing changes if the number of entries is wrong or if the first
parameter is the refused one (always so in one dimension). Missing: the full claim, which
is false for a refusal at a later parameter. -/
theorem c15_rejected_rebin_partial (s : Spectrum) (hs : s.WF) (ns : List ℕ)
    (h : (s.rebin ns).err ≠ none) :
    (s.rebin ns).st.data = s.data ∧ (s.rebin ns).st.numDecays = s.numDecays ∧
    (s.rebin ns).st.rawEvents = s.rawEvents ∧ (s.rebin ns).st.rois = s.rois ∧
    (s.rebin ns).st.name = s.name ∧
    (ns.length ≠ s.cfg.length → (s.rebin ns).st = s) ∧
    (ns.length = s.cfg.length → ∃ k, ∃ h1 : k < s.cfg.length, ∃ h2 : k < ns.length,
      ¬ ((ns[k] : ℕ) : ℤ) ∣ s.cfg[k].bins ∧
      (s.rebin ns).st.cfg =
        (List.zipWith (fun (p : SPar) (n : ℕ) => { p with bins := (n : ℤ) }) s.cfg ns).take k ++
          s.cfg.drop k) := by
  by_cases hl : ns.length = s.cfg.length
  · obtain ⟨e, he, hr⟩ := rebin_err_of_not_dvd hs hl (by rwa [← rebin_err_none_iff hs])
    rw [hr]
    refine ⟨rfl, rfl, rfl, rfl, rfl, fun h => absurd hl h, fun _ => ?_⟩
    simp only [Outcome.fail]
    have hax : ∀ p ∈ s.cfg, 0 < p.bins := fun p hp => (hs.axes p hp).1
    rename_i _hx
    clear h hr _hx
    revert hl he hax
    generalize s.cfg = cfg
    intro hl he hax
    induction cfg generalizing ns with
    | nil => cases ns <;> simp_all [rebinLoop]
    | cons p cfg ih => cases ns with
      | nil => simp at hl
      | cons n ns =>
        unfold rebinLoop at he ⊢
        have hp := hax p (by simp)
        by_cases h0 : n = 0
        · refine ⟨0, by simp, by simp, ?_, by simp [h0]⟩
          simp [h0]; omega
        · by_cases h1 : p.bins % n = 0
          · simp only [h0, h1, ne_eq, not_true_eq_false, if_false] at he ⊢
            obtain ⟨k, hk1, hk2, hk3, hk4⟩ := ih ns (by simpa using hl) he
              (fun q hq => hax q (by simp [hq]))
            exact ⟨k + 1, by simpa using hk1, by simpa using hk2, by simpa using hk3,
              by simp [hk4]⟩
          · refine ⟨0, by simp, by simp, ?_, by simp [h0, h1]⟩
            simpa using fun h => h1 (Int.emod_eq_zero_of_dvd h)
  · have : s.rebin ns = .fail s .valueError := by unfold Spectrum.rebin; rw [if_pos hl]
    rw [this]
    exact ⟨rfl, rfl, rfl, rfl, rfl, fun _ => rfl, fun h => absurd h hl⟩

example : (Ex.spec.rebin [3, 2]).err ≠ none := by
  rw [Ne, rebin_err_none_iff Ex.spec_wf]; simp [Ex.spec, Ex.energy, Ex.radial]

theorem rebinLoop_failed {cfg : List SPar} {ns : List ℕ} (hl : ns.length = cfg.length)
    (hax : ∀ p ∈ cfg, 0 < p.bins) {e : PyErr} (he : (rebinLoop cfg ns).2 = some e) :
    ∃ k, ∃ _ : k < cfg.length, ∃ _ : k < ns.length, ¬ ((ns[k] : ℕ) : ℤ) ∣ cfg[k].bins ∧
      (∀ j (_ : j < k), ((ns[j] : ℕ) : ℤ) ∣ cfg[j].bins) ∧
      ((rebinLoop cfg ns).1 = cfg ↔ ∀ j (_ : j < k), ((ns[j] : ℕ) : ℤ) = cfg[j].bins) := by
  induction cfg generalizing ns with
  | nil => cases ns <;> simp_all [rebinLoop]
  | cons p cfg ih => cases ns with
    | nil => simp at hl
    | cons n ns =>
      have hp := hax p (by simp)
      unfold rebinLoop at he ⊢
      by_cases h0 : n = 0
      · refine ⟨0, by simp, by simp, ?_, by simp, by simp [h0]⟩
        simp [h0]; omega
      · by_cases h1 : p.bins % n = 0
        · simp only [h0, h1, ne_eq, not_true_eq_false, if_false] at he ⊢
          obtain ⟨k, hk1, hk2, hk3, hk4, hk5⟩ := ih (ns := ns) (by simpa using hl)
            (fun q hq => hax q (by simp [hq])) he
          refine ⟨k + 1, by simpa using hk1, by simpa using hk2, by simpa using hk3, ?_, ?_⟩
          · rintro (_ | j) hj
            · exact Int.dvd_of_emod_eq_zero h1
            · exact hk4 j (by omega)
          · rw [List.cons.injEq, hk5]
            constructor
            · rintro ⟨ha, hb⟩ (_ | j) hj
              · exact congrArg SPar.bins ha
              · exact hb j (by omega)
            · intro h
              refine ⟨?_, fun j hj => h (j + 1) (by omega)⟩
              have := h 0 (by omega)
              simp only [List.getElem_cons_zero] at this
              cases p
              simp_all
        · refine ⟨0, by simp, by simp, ?_, by simp, by simp [h0, h1]⟩
          simpa using fun h => h1 (Int.emod_eq_zero_of_dvd h)

/-- **C15, exactly when it holds.** A rebin with one entry for every parameter that is refused has a first
parameter whose bin count is not a multiple of the entry. The spectrum is left as it was if and only if
every entry before that one is the bin count its parameter already had. -/
theorem c15_exactly (s : Spectrum) (hs : s.WF) (ns : List ℕ) (hl : ns.length = s.cfg.length)
    (h : (s.rebin ns).err ≠ none) :
    ∃ k, ∃ _ : k < s.cfg.length, ¬ ((ns[k] : ℕ) : ℤ) ∣ s.cfg[k].bins ∧
      (∀ j (_ : j < k), ((ns[j] : ℕ) : ℤ) ∣ s.cfg[j].bins) ∧
      ((s.rebin ns).st = s ↔ ∀ j (_ : j < k), ((ns[j] : ℕ) : ℤ) = s.cfg[j].bins) := by
  obtain ⟨e, he, hr⟩ := rebin_err_of_not_dvd hs hl (by rwa [← rebin_err_none_iff hs])
  obtain ⟨k, h1, h2, h3, h4, h5⟩ := rebinLoop_failed hl (fun p hp => (hs.axes p hp).1) he
  refine ⟨k, h1, h3, h4, ?_⟩
  rw [hr, ← h5]
  simp only [Outcome.fail]
  constructor
  · intro h
    exact congrArg Spectrum.cfg h
  · intro h
    cases s
    simp_all

example : (Ex.spec.rebin [2, 3]).err ≠ none ∧ [2, 3].length = Ex.spec.cfg.length := by
  rw [Ne, rebin_err_none_iff Ex.spec_wf]; simp [Ex.spec, Ex.energy, Ex.radial]

end Verif
