import Verif.Spec.FillSpectrum
import Verif.Lemmas.Fill
import Verif.Lemmas.Config
import Verif.Props.Fill
import Verif.Props.DsExtract

/-! # Lemmas about filling from files -/

namespace Verif

variable {α ε : Type}

theorem Filled.refl (s : Spectrum) : Filled s s [] :=
  ⟨rfl, rfl, rfl, rfl, rfl, by simp, by simp⟩

theorem inRange_cfg {s t : Spectrum} (h : t.cfg = s.cfg) (kw) : InRange t kw ↔ InRange s kw := by
  unfold InRange; rw [h]

theorem cellOf_cfg {s t : Spectrum} (h : t.cfg = s.cfg) (kw j) :
    CellOf t kw j ↔ CellOf s kw j := by
  unfold CellOf; rw [h]

theorem Filled.trans {s t u : Spectrum} {a b} (h1 : Filled s t a) (h2 : Filled t u b) :
    Filled s u (a ++ b) := by
  have hi : InRange t = InRange s := funext fun _ => propext (inRange_cfg h1.cfg _)
  have hc : CellOf t = CellOf s :=
    funext fun _ => funext fun _ => propext (cellOf_cfg h1.cfg _ _)
  refine ⟨h2.name.trans h1.name, h2.cfg.trans h1.cfg, h2.numDecays.trans h1.numDecays,
    h2.rois.trans h1.rois, h2.shape.trans h1.shape, ?_, ?_⟩
  · rw [h2.raw, h1.raw, hi, List.filter_append, List.length_append]
    push_cast; ring
  · intro j
    rw [h2.cells, h1.cells, hi, hc, List.filter_append, List.length_append]
    push_cast; ring

theorem inRange_same {s : Spectrum} {a b : List (PyStr × ℚ)} (h : ∀ e, e ∈ a ↔ e ∈ b) :
    InRange s a ↔ InRange s b := by
  unfold InRange; simp only [h]

theorem cellOf_same {s : Spectrum} {a b : List (PyStr × ℚ)} (h : ∀ e, e ∈ a ↔ e ∈ b) (j) :
    CellOf s a j ↔ CellOf s b j := by
  unfold CellOf; simp only [h]

/-- The names of a point are those of the axes. -/
def Named (s : Spectrum) (p : List (PyStr × ℚ)) : Prop := p.map Prod.fst = s.cfg.map SPar.name

theorem tryFill_filled {s : Spectrum} (hs : s.WF) {kw p : List (PyStr × ℚ)} (hk : IsDict kw)
    (hsame : ∀ e, e ∈ kw ↔ e ∈ p) (hn : Named s p) :
    ∃ t, tryFill s kw = .ok t ∧ t.WF ∧ Filled s t [p] := by
  unfold tryFill
  by_cases h : InRange s kw
  · have hp := (inRange_same hsame).1 h
    obtain ⟨idx, hc, hf⟩ := fill_of_inRange hs hk h 1
    rw [hf]
    refine ⟨_, rfl, ⟨hs.axes, hs.names, hs.shape⟩, ⟨rfl, rfl, rfl, rfl, rfl, ?_, ?_⟩⟩
    · simp [hp]
    · intro j
      simp only [NdArray.addAt]
      have hc' := cellOf_same (s := s) hsame j
      by_cases hj : j = idx
      · subst hj
        simp [hp, hc'.1 hc]
      · have : ¬ CellOf s p j := fun h' => hj (cellOf_unique hs hk (hc'.2 h') hc)
        simp [hj, this]
  · have hp : ¬ InRange s p := fun h' => h ((inRange_same hsame).2 h')
    have hmemn : ∀ n, (∃ x, (n, x) ∈ kw) ↔ n ∈ s.cfg.map SPar.name := by
      intro n
      rw [← hn]
      simp [hsame]
    have hval := (c02_fill_error_kind s kw hk 1).2 (fun e he => by
        have := (hmemn e.1).1 ⟨e.2, he⟩
        obtain ⟨p, hp, hpe⟩ := List.mem_map.1 this
        exact ⟨p, hp, hpe⟩)
      (fun q hq => (hmemn q.name).2 (List.mem_map_of_mem hq)) (by
        by_contra hcon
        push Not at hcon
        apply h
        refine ⟨fun e he => ?_, fun q hq => ?_⟩
        · have := (hmemn e.1).1 ⟨e.2, he⟩
          obtain ⟨p, hp, hpe⟩ := List.mem_map.1 this
          exact ⟨p, hp, hpe⟩
        · obtain ⟨x, hx⟩ := (hmemn q.name).2 (List.mem_map_of_mem hq)
          exact ⟨x, hx, hcon q hq x hx⟩)
    have hst := (c02_rejected_fill_unchanged s hs kw hk 1).2 h
    have : s.fill 1 kw = ⟨s, some .valueError⟩ := by
      cases hf : s.fill 1 kw
      rw [hf] at hval hst
      simp only at hval hst
      rw [hval, hst]
    rw [this]
    exact ⟨s, rfl, hs, ⟨rfl, rfl, rfl, rfl, rfl, by simp [hp], by simp [hp]⟩⟩

/-- One round of collecting works as the specification `pt` says, whatever is left in
the dictionary from before. -/
def Collects (exts : List (PyStr × Getter ε)) (names : List PyStr)
    (pt : ε → Option (List (PyStr × ℚ))) (x : ε) : Prop :=
  ∀ kw, IsDict kw → (∀ e ∈ kw, e.1 ∈ names) →
    ∃ kw' b, collect exts x kw = .ok (kw', b) ∧ IsDict kw' ∧ (∀ e ∈ kw', e.1 ∈ names) ∧
      (b = false → pt x = none) ∧
      (b = true → ∃ p, pt x = some p ∧ p.map Prod.fst = names ∧ ∀ e, e ∈ kw' ↔ e ∈ p)

theorem keys_sub_dictSet {d : Dict ℚ} {k : PyStr} {v : ℚ} {e : PyStr × ℚ}
    (h : e ∈ dictSet d k v) : e.1 = k ∨ e.1 ∈ d.map Prod.fst := by
  have : e.1 ∈ (dictSet d k v).map Prod.fst := List.mem_map_of_mem h
  rw [keys_dictSet] at this
  split at this
  · exact .inr this
  · rcases List.mem_append.1 this with h | h
    · exact .inr h
    · exact .inl (by simpa using h)

theorem pointOf_cons (val : α → ε → Option ℚ) (a : PyStr × α) (axes : List (PyStr × α)) (x : ε) :
    pointOf val (a :: axes) x =
      (val a.2 x).bind (fun v => (pointOf val axes x).map (fun p => (a.1, v) :: p)) := by
  unfold pointOf
  rw [List.mapM_cons]
  cases val a.2 x with
  | none => rfl
  | some v =>
    cases axes.mapM (fun a => (val a.2 x).map (fun v => (a.1, v))) <;> simp

theorem pointOf_names (val : α → ε → Option ℚ) {axes : List (PyStr × α)} {x : ε} {p}
    (h : pointOf val axes x = some p) : p.map Prod.fst = axes.map Prod.fst := by
  induction axes generalizing p with
  | nil => simp [pointOf] at h; subst h; rfl
  | cons a axes ih =>
    rw [pointOf_cons] at h
    cases hv : val a.2 x with
    | none => simp [hv] at h
    | some v =>
      cases hp : pointOf val axes x with
      | none => simp [hv, hp] at h
      | some q => simp [hv, hp] at h; subst h; simp [ih hp]

theorem pointOf_mem (val : α → ε → Option ℚ) {axes : List (PyStr × α)} {x : ε} {p}
    (h : pointOf val axes x = some p) (e : PyStr × ℚ) :
    e ∈ p ↔ ∃ a ∈ axes, e.1 = a.1 ∧ val a.2 x = some e.2 := by
  induction axes generalizing p with
  | nil => simp [pointOf] at h; subst h; simp
  | cons a axes ih =>
    rw [pointOf_cons] at h
    cases hv : val a.2 x with
    | none => simp [hv] at h
    | some v =>
      cases hp : pointOf val axes x with
      | none => simp [hv, hp] at h
      | some q =>
        simp [hv, hp] at h; subst h
        rw [List.mem_cons, ih hp]
        constructor
        · rintro (rfl | ⟨b, hb, h⟩)
          · exact ⟨a, by simp, rfl, hv⟩
          · exact ⟨b, by simp [hb], h⟩
        · rintro ⟨b, hb, h⟩
          rcases List.mem_cons.1 hb with rfl | hb
          · left
            rw [hv] at h
            cases e
            simp only [Option.some.injEq] at h
            simp [h]
          · exact .inr ⟨b, hb, h⟩

theorem pointOf_none (val : α → ε → Option ℚ) {axes : List (PyStr × α)} {x : ε} :
    pointOf val axes x = none ↔ ∃ a ∈ axes, val a.2 x = none := by
  induction axes with
  | nil => simp [pointOf]
  | cons a axes ih =>
    rw [pointOf_cons]
    cases hv : val a.2 x with
    | none => simp [hv]
    | some v => simp [hv, ih]

theorem collect_spec (get : α → Getter ε) (val : α → ε → Option ℚ) (axes : List (PyStr × α))
    (hnd : (axes.map Prod.fst).Nodup) (x : ε) (hg : ∀ a ∈ axes, get a.2 x = .ok (val a.2 x))
    (kw : Dict ℚ) (hk : IsDict kw) :
    ∃ kw', collect (axes.map (fun a => (a.1, get a.2))) x kw
        = .ok (kw', (pointOf val axes x).isSome) ∧ IsDict kw' ∧
      (∀ e ∈ kw', e.1 ∈ kw.map Prod.fst ∨ e.1 ∈ axes.map Prod.fst) ∧
      ∀ p, pointOf val axes x = some p → ∀ e, e ∈ kw' ↔
        e ∈ p ∨ (e ∈ kw ∧ e.1 ∉ axes.map Prod.fst) := by
  induction axes generalizing kw with
  | nil =>
    refine ⟨kw, by simp [collect, pointOf], hk, fun e he => .inl (List.mem_map_of_mem he), ?_⟩
    intro p hp e
    simp [pointOf] at hp; subst hp; simp
  | cons a axes ih =>
    have hnd' : a.1 ∉ axes.map Prod.fst ∧ (axes.map Prod.fst).Nodup := by
      simpa using hnd
    rw [pointOf_cons]
    simp only [List.map_cons, collect, hg a (by simp)]
    cases hv : val a.2 x with
    | none =>
      exact ⟨kw, by simp, hk, fun e he => .inl (List.mem_map_of_mem he), by simp⟩
    | some v =>
      have hk' : IsDict (dictSet kw a.1 v) := nodup_dictSet hk _ _
      obtain ⟨kw', h1, h2, h3, h4⟩ := ih hnd'.2 (fun b hb => hg b (by simp [hb])) _ hk'
      refine ⟨kw', ?_, h2, ?_, ?_⟩
      · simp only [h1]
        cases pointOf val axes x <;> rfl
      · intro e he
        rcases h3 e he with h | h
        · rw [keys_dictSet] at h
          split at h
          · exact .inl h
          · rcases List.mem_append.1 h with h | h
            · exact .inl h
            · right; simp at h; simp [h]
        · right; simp at h ⊢; exact .inr h
      · intro p hp e
        cases hq : pointOf val axes x with
        | none => simp [hq] at hp
        | some q =>
          simp [hq] at hp
          rw [h4 q hq e, ← hp]
          have hmem : ∀ e : PyStr × ℚ, e ∈ dictSet kw a.1 v ↔
              e = (a.1, v) ∨ (e ∈ kw ∧ e.1 ≠ a.1) := by
            rintro ⟨k, w⟩
            have e1 : ((k, w) ∈ dictSet kw a.1 v ↔ assoc (dictSet kw a.1 v) k = some w) :=
              ⟨assoc_of_mem hk', assoc_mem⟩
            have e2 : ((k, w) ∈ kw ↔ assoc kw k = some w) := ⟨assoc_of_mem hk, assoc_mem⟩
            rw [e1, e2, assoc_dictSet]
            by_cases hka : a.1 = k
            · subst hka; simp; exact ⟨Eq.symm, Eq.symm⟩
            · simp [hka, Ne.symm hka]
          rw [hmem]
          simp only [List.mem_cons, not_or]
          constructor
          · rintro (h | ⟨rfl | ⟨h1, h2⟩, h3⟩)
            · exact .inl (.inr h)
            · exact .inl (.inl rfl)
            · exact .inr ⟨h1, h2, h3⟩
          · rintro ((rfl | h) | ⟨h1, h2, h3⟩)
            · exact .inr ⟨.inl rfl, hnd'.1⟩
            · exact .inl h
            · exact .inr ⟨.inr ⟨h1, h2⟩, h3⟩

/-- Collecting over the axes in any order agrees with the point in the order of the axes. -/
theorem collects_of_perm (get : α → Getter ε) (val : α → ε → Option ℚ)
    {axes axes' : List (PyStr × α)} (hp : axes'.Perm axes)
    (hnd : (axes.map Prod.fst).Nodup) (x : ε) (hg : ∀ a ∈ axes, get a.2 x = .ok (val a.2 x)) :
    Collects (axes'.map (fun a => (a.1, get a.2))) (axes.map Prod.fst) (pointOf val axes) x := by
  intro kw hk hsub
  obtain ⟨kw', h1, h2, h3, h4⟩ := collect_spec get val axes'
    ((hp.map Prod.fst).nodup_iff.2 hnd) x (fun a ha => hg a (hp.mem_iff.1 ha)) kw hk
  have hmap : ∀ n, n ∈ axes'.map Prod.fst ↔ n ∈ axes.map Prod.fst :=
    fun n => (hp.map Prod.fst).mem_iff
  refine ⟨kw', _, h1, h2, ?_, ?_, ?_⟩
  · intro e he
    rcases h3 e he with h | h
    · obtain ⟨e', he', hee⟩ := List.mem_map.1 h
      rw [← hee]; exact hsub e' he'
    · exact (hmap _).1 h
  · intro hb
    rw [Option.isSome_eq_false_iff, Option.isNone_iff_eq_none, pointOf_none] at hb
    rw [pointOf_none]
    obtain ⟨a, ha, h⟩ := hb
    exact ⟨a, hp.mem_iff.1 ha, h⟩
  · intro hb
    obtain ⟨p', hp'⟩ := Option.isSome_iff_exists.1 hb
    cases hq : pointOf val axes x with
    | none =>
      exfalso
      rw [pointOf_none] at hq
      obtain ⟨a, ha, h⟩ := hq
      have : pointOf val axes' x = none := pointOf_none val |>.2 ⟨a, hp.mem_iff.2 ha, h⟩
      rw [this] at hp'; cases hp'
    | some p =>
      refine ⟨p, rfl, pointOf_names val hq, fun e => ?_⟩
      rw [h4 p' hp' e, pointOf_mem val hp', pointOf_mem val hq]
      constructor
      · rintro (⟨a, ha, h⟩ | ⟨he, hn⟩)
        · exact ⟨a, hp.mem_iff.1 ha, h⟩
        · exact absurd ((hmap _).2 (hsub e he)) hn
      · rintro ⟨a, ha, h⟩
        exact .inl ⟨a, hp.mem_iff.2 ha, h⟩

theorem plainLoop_filled {exts : List (PyStr × Getter ε)} {pt : ε → Option (List (PyStr × ℚ))}
    {s : Spectrum} (hs : s.WF) {xs : List ε}
    (hc : ∀ x ∈ xs, Collects exts (s.cfg.map SPar.name) pt x) :
    ∃ t, plainLoop exts s xs = .ok t ∧ t.WF ∧ Filled s t (xs.filterMap pt) := by
  induction xs generalizing s with
  | nil => exact ⟨s, rfl, hs, Filled.refl s⟩
  | cons x xs ih =>
    obtain ⟨kw, b, h1, h2, -, h4, h5⟩ := hc x (by simp) [] (by simp [IsDict]) (by simp)
    simp only [plainLoop, h1]
    cases b with
    | false =>
      rw [List.filterMap_cons_none (h4 rfl)]
      exact ih hs (fun y hy => hc y (by simp [hy]))
    | true =>
      obtain ⟨p, hp, hn, hsame⟩ := h5 rfl
      obtain ⟨t, ht, htw, htf⟩ := tryFill_filled hs h2 hsame hn
      rw [List.filterMap_cons_some hp]
      simp only [ht, Outcome.ok]
      obtain ⟨u, hu, huw, huf⟩ := ih htw
        (fun y hy => by rw [htf.cfg]; exact hc y (by simp [hy]))
      exact ⟨u, hu, huw, htf.trans huf⟩

/-- `l` if the next entry is not another trigger of the same event. -/
def ifNext {β : Type} (xs : List (ℤ × ε)) (l : List β) : List β :=
  match xs with
  | [] => []
  | b :: _ => if b.1 < 1 then l else []

theorem filterMap_ifNext {β : Type} (pt : ε → Option β) (xs : List (ℤ × ε)) (x : ε) :
    (ifNext xs [x]).filterMap pt = ifNext xs (pt x).toList := by
  cases xs with
  | nil => rfl
  | cons b l =>
    simp only [ifNext]
    split_ifs
    · cases h : pt x <;> simp [h]
    · rfl

theorem ifNext_nil {β : Type} (xs : List (ℤ × ε)) : ifNext xs ([] : List β) = [] := by
  cases xs with
  | nil => rfl
  | cons b l => simp [ifNext]

theorem followed_cons (a : ℤ × ε) (l : List (ℤ × ε)) :
    followed (a :: l) = (if a.1 = 0 then ifNext l [a.2] else []) ++ followed l := by
  cases l with
  | nil => simp [followed, ifNext]
  | cons b l =>
    simp only [followed, List.tail_cons, List.zip_cons_cons, List.filterMap_cons, ifNext]
    by_cases h1 : a.1 = 0 <;> by_cases h2 : b.1 < 1 <;> simp [h1, h2]

theorem bipoLoop_filled {exts : List (PyStr × Getter ε)} (hne : exts ≠ [])
    {pt : ε → Option (List (PyStr × ℚ))}
    {s : Spectrum} (hs : s.WF) {xs : List (ℤ × ε)}
    (hc : ∀ x ∈ xs, Collects exts (s.cfg.map SPar.name) pt x.2)
    (check : Bool) (kw : Dict ℚ) (pend : Option (List (PyStr × ℚ)))
    (hp : check = pend.isSome)
    (hk : ∀ p, pend = some p → IsDict kw ∧ Named s p ∧ ∀ e, e ∈ kw ↔ e ∈ p) :
    ∃ t, bipoLoop exts s check kw xs = .ok t ∧ t.WF ∧
      Filled s t (ifNext xs pend.toList ++ (followed xs).filterMap pt) := by
  induction xs generalizing s check kw pend with
  | nil => exact ⟨s, rfl, hs, by simpa [followed, ifNext] using Filled.refl s⟩
  | cons x xs ih =>
    obtain ⟨evIndex, x⟩ := x
    -- first part: the pending candidate
    have h1 : ∃ s', (if check && decide (evIndex < 1) then tryFill s kw else Outcome.ok s) = .ok s' ∧
        s'.WF ∧ Filled s s' (if evIndex < 1 then pend.toList else []) := by
      by_cases hi : evIndex < 1
      · cases hpd : pend with
        | none =>
          simp only [hpd, Option.isSome_none] at hp
          simp only [hp, Bool.false_and, Bool.false_eq_true, if_false, hi, if_true]
          exact ⟨s, rfl, hs, Filled.refl s⟩
        | some p =>
          simp only [hpd, Option.isSome_some] at hp
          obtain ⟨k1, k2, k3⟩ := hk p hpd
          simp only [hp, hi, decide_true, Bool.and_self, if_true]
          exact tryFill_filled hs k1 k3 k2
      · simp only [hi, decide_false, Bool.and_false, Bool.false_eq_true, if_false]
        exact ⟨s, rfl, hs, Filled.refl s⟩
    obtain ⟨s', e1, e2, e3⟩ := h1
    have hc' : ∀ y ∈ xs, Collects exts (s'.cfg.map SPar.name) pt y.2 :=
      fun y hy => by rw [e3.cfg]; exact hc y (by simp [hy])
    obtain ⟨kw', b, c1, c2, -, c4, c5⟩ := hc (evIndex, x) (by simp) [] (by simp [IsDict]) (by simp)
    simp only at c1 c4 c5
    have hex : exts.isEmpty = false := by simpa using hne
    have hstep : bipoLoop exts s check kw ((evIndex, x) :: xs) =
        if evIndex ≠ 0 then bipoLoop exts s' false [] xs
        else bipoLoop exts s' b kw' xs := by
      rw [bipoLoop, e1]
      simp only [Outcome.ok, c1, hex, Bool.false_eq_true, if_false]
    rw [hstep, followed_cons, List.filterMap_append]
    by_cases h0 : evIndex = 0
    · simp only [h0, ne_eq, not_true_eq_false, if_false, if_true]
      have hb : b = (pt x).isSome := by
        cases b with
        | false => rw [c4 rfl]; rfl
        | true => obtain ⟨p, hp, -⟩ := c5 rfl; rw [hp]; rfl
      obtain ⟨t, t1, t2, t3⟩ := ih e2 hc' b kw' (pt x) hb (fun p hp => by
        have hbt : b = true := by rw [hb, hp]; rfl
        obtain ⟨q, hq, hn, hsame⟩ := c5 hbt
        rw [hp] at hq; cases hq
        exact ⟨c2, by unfold Named; rw [e3.cfg]; exact hn, hsame⟩)
      refine ⟨t, t1, t2, ?_⟩
      rw [filterMap_ifNext]
      have h3 := e3.trans t3
      rw [h0] at h3
      simpa [ifNext] using h3
    · simp only [h0, ne_eq, not_false_eq_true, if_true, if_false]
      obtain ⟨t, t1, t2, t3⟩ := ih e2 hc' false [] none rfl (fun p hp => by cases hp)
      refine ⟨t, t1, t2, ?_⟩
      have := e3.trans t3
      rw [Option.toList_none, ifNext_nil] at this
      simpa [ifNext] using this

theorem bipoKept_cons (bipo : Bool) (d : RootDS) (ds : List RootDS) :
    bipoKept bipo (d :: ds) =
      if bipo && decide (d.evs.length ≠ 1) then bipoKept bipo ds else d :: bipoKept bipo ds := by
  unfold bipoKept
  rw [List.filter_cons]
  by_cases h : d.evs.length = 1 <;> cases bipo <;> simp [h]

theorem rootMC_filled {exts : List (PyStr × Getter RootDS)}
    {pt : RootDS → Option (List (PyStr × ℚ))} (bipo : Bool)
    {s : Spectrum} (hs : s.WF) {xs : List RootDS}
    (hc : ∀ x ∈ bipoKept bipo xs, Collects exts (s.cfg.map SPar.name) pt x) :
    ∃ t, rootMC exts bipo s xs = .ok t ∧ t.WF ∧ Filled s t ((bipoKept bipo xs).filterMap pt) := by
  induction xs generalizing s with
  | nil => exact ⟨s, rfl, hs, Filled.refl s⟩
  | cons x xs ih =>
    rw [bipoKept_cons] at hc ⊢
    unfold rootMC
    split
    · next h => rw [if_pos h] at hc; exact ih hs hc
    · next h =>
      rw [if_neg h] at hc
      obtain ⟨kw, b, h1, h2, -, h4, h5⟩ := hc x (by simp) [] (by simp [IsDict]) (by simp)
      simp only [h1]
      cases b with
      | false =>
        rw [List.filterMap_cons_none (h4 rfl)]
        exact ih hs (fun y hy => hc y (by simp [hy]))
      | true =>
        obtain ⟨p, hp, hn, hsame⟩ := h5 rfl
        obtain ⟨t, ht, htw, htf⟩ := tryFill_filled hs h2 hsame hn
        rw [List.filterMap_cons_some hp]
        simp only [ht, Outcome.ok]
        obtain ⟨u, hu, huw, huf⟩ := ih htw
          (fun y hy => by rw [htf.cfg]; exact hc y (by simp [hy]))
        exact ⟨u, hu, huw, htf.trans huf⟩

theorem evLoop_eq (exts : List (PyStr × Getter (RootEV × RootDS))) (d : RootDS) (s : Spectrum)
    (evs : List RootEV) :
    evLoop exts d s evs = plainLoop exts s (evs.map (fun ev => (ev, d))) := by
  induction evs generalizing s with
  | nil => rfl
  | cons ev evs ih =>
    simp only [evLoop, plainLoop, List.map_cons, ih]

theorem evsOf_cons (d : RootDS) (ds : List RootDS) :
    evsOf (d :: ds) = d.evs.map (fun ev => (ev, d)) ++ evsOf ds := rfl

theorem rootEV_filled {exts : List (PyStr × Getter (RootEV × RootDS))}
    {pt : RootEV × RootDS → Option (List (PyStr × ℚ))} (bipo : Bool)
    {s : Spectrum} (hs : s.WF) {xs : List RootDS}
    (hc : ∀ x ∈ evsOf (bipoKept bipo xs), Collects exts (s.cfg.map SPar.name) pt x) :
    ∃ t, rootEV exts bipo s xs = .ok t ∧ t.WF ∧
      Filled s t ((evsOf (bipoKept bipo xs)).filterMap pt) := by
  induction xs generalizing s with
  | nil => exact ⟨s, rfl, hs, Filled.refl s⟩
  | cons x xs ih =>
    rw [bipoKept_cons] at hc ⊢
    unfold rootEV
    split
    · next h => rw [if_pos h] at hc; exact ih hs hc
    · next h =>
      rw [if_neg h, evsOf_cons] at hc
      rw [evsOf_cons, List.filterMap_append]
      obtain ⟨t, t1, t2, t3⟩ := plainLoop_filled (pt := pt) hs
        (fun y hy => hc y (List.mem_append_left _ hy))
      simp only [evLoop_eq, t1, Outcome.ok]
      obtain ⟨u, hu, huw, huf⟩ := ih t2
        (fun y hy => by rw [t3.cfg]; exact hc y (List.mem_append_right _ hy))
      exact ⟨u, hu, huw, t3.trans huf⟩

theorem mixLoop_filled {exts : List (PyStr × Getter (RootEV × RootDS))}
    {pt : RootEV × RootDS → Option (List (PyStr × ℚ))} (d : RootDS)
    {s : Spectrum} (hs : s.WF) {evs : List RootEV}
    (hc : ∀ ev ∈ evs, Collects exts (s.cfg.map SPar.name) pt (ev, d))
    (kw : Dict ℚ) (hk : IsDict kw) (hsub : ∀ e ∈ kw, e.1 ∈ s.cfg.map SPar.name) :
    ∃ t, mixLoop exts d s kw evs = .ok t ∧ t.WF ∧
      Filled s t ((evs.map (fun ev => (ev, d))).filterMap pt) := by
  induction evs generalizing s kw with
  | nil => exact ⟨s, rfl, hs, Filled.refl s⟩
  | cons x xs ih =>
    obtain ⟨kw', b, h1, h2, h3, h4, h5⟩ := hc x (by simp) kw hk hsub
    simp only [mixLoop, h1, List.map_cons]
    cases b with
    | false =>
      rw [List.filterMap_cons_none (h4 rfl)]
      exact ih hs (fun y hy => hc y (by simp [hy])) kw' h2 h3
    | true =>
      obtain ⟨p, hp, hn, hsame⟩ := h5 rfl
      obtain ⟨t, ht, htw, htf⟩ := tryFill_filled hs h2 hsame hn
      rw [List.filterMap_cons_some hp]
      simp only [ht, Outcome.ok]
      obtain ⟨u, hu, huw, huf⟩ := ih htw
        (fun y hy => by rw [htf.cfg]; exact hc y (by simp [hy])) kw' h2
        (by rw [htf.cfg]; exact h3)
      exact ⟨u, hu, huw, htf.trans huf⟩

theorem rootMix_filled {exts : List (PyStr × Getter (RootEV × RootDS))}
    {pt : RootEV × RootDS → Option (List (PyStr × ℚ))} (bipo : Bool)
    {s : Spectrum} (hs : s.WF) {xs : List RootDS}
    (hc : ∀ x ∈ evsOf (bipoKept bipo xs), Collects exts (s.cfg.map SPar.name) pt x) :
    ∃ t, rootMix exts bipo s xs = .ok t ∧ t.WF ∧
      Filled s t ((evsOf (bipoKept bipo xs)).filterMap pt) := by
  induction xs generalizing s with
  | nil => exact ⟨s, rfl, hs, Filled.refl s⟩
  | cons x xs ih =>
    rw [bipoKept_cons] at hc ⊢
    unfold rootMix
    split
    · next h => rw [if_pos h] at hc; exact ih hs hc
    · next h =>
      rw [if_neg h, evsOf_cons] at hc
      rw [evsOf_cons, List.filterMap_append]
      obtain ⟨t, t1, t2, t3⟩ := mixLoop_filled (pt := pt) x hs (evs := x.evs)
        (fun y hy => hc (y, x) (List.mem_append_left _ (List.mem_map_of_mem hy)))
        [] (by simp [IsDict]) (by simp)
      simp only [t1, Outcome.ok]
      obtain ⟨u, hu, huw, huf⟩ := ih t2
        (fun y hy => by rw [t3.cfg]; exact hc y (List.mem_append_right _ hy))
      exact ⟨u, hu, huw, t3.trans huf⟩

end Verif
