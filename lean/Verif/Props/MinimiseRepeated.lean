import Verif.Props.Minimise
import Verif.Spec.MinimiseRepeated

/-! # C43: grids with repeated values -/

namespace Verif

theorem getValueIndex_first {p : FitPar} {vs : List ℝ} (hv : p.getValues = .ok vs) {x : ℝ} (h : x ∈ vs) :
    ∃ i, p.getValueIndex x = .ok i ∧ vs[i]? = some x ∧ ∀ k < i, vs[k]? ≠ some x := by
  classical
  obtain ⟨i, hi, hx⟩ := findIdx?_own h (fun y => decide (y = x)) (by simp)
  refine ⟨i, ?_, hx, fun k hk he => ?_⟩
  · unfold FitPar.getValueIndex
    have hi' : vs.findIdx? (fun y => @decide (y = x) (Classical.propDecidable _)) = some i := by
      convert hi
    simp only [hv, bind, Except.bind, hi']
  · obtain ⟨hl, -, hn⟩ := List.findIdx?_eq_some_iff_getElem.1 hi
    obtain ⟨hk', hk''⟩ := List.getElem?_eq_some_iff.1 he
    exact hn k hk (by simpa using hk'')

theorem mem_flatten_forall₂ {α β : Type} {R : α → List β → Prop} {l : List α} {r : List (List β)}
    (h : List.Forall₂ R l r) {b : β} : b ∈ r.flatten ↔ ∃ x ∈ l, ∃ y ∈ r, R x y ∧ b ∈ y := by
  induction h with
  | nil => simp
  | @cons x y l r hR h ih =>
    rw [List.flatten_cons, List.mem_append, ih]
    constructor
    · rintro (hb | ⟨x', hx, y', hy, h1, h2⟩)
      · exact ⟨x, by simp, y, by simp, hR, hb⟩
      · exact ⟨x', by simp [hx], y', by simp [hy], h1, h2⟩
    · rintro ⟨x', hx, y', hy, h1, h2⟩
      rcases List.mem_cons.1 hy with rfl | hy
      · exact .inl h2
      · right
        obtain ⟨x'', hx'', hR''⟩ : ∃ x'' ∈ l, R x'' y' := by
          clear * - h hy
          induction h with
          | nil => simp at hy
          | @cons a b l r hab h ih =>
            rcases List.mem_cons.1 hy with rfl | hy
            · exact ⟨a, by simp, hab⟩
            · obtain ⟨x, hx, hR⟩ := ih hy
              exact ⟨x, by simp [hx], hR⟩
        exact ⟨x'', hx'', y', hy, hR'', h2⟩

/-- The grid points that are visited. -/
theorem gridPoints_first {pars : List FitPar} {vss : List (List ℝ)} (h : HasValues pars vss) :
    ∃ l, GridSearch.gridPoints pars = .ok l ∧ ∀ idx, idx ∈ l.map Prod.snd ↔ FirstOccurrence vss idx := by
  induction h with
  | nil =>
    refine ⟨[([], [])], rfl, fun idx => ?_⟩
    simp [FirstOccurrence]
  | @cons p vs pars vss hp _ ih =>
    obtain ⟨rest, hrest, hn⟩ := ih
    have hblock : ∀ v ∈ vs, ∃ y, (do
        let i ← p.getValueIndex v
        let rest ← GridSearch.gridPoints pars
        Except.ok (rest.map (fun (e : List ℝ × List ℕ) => (v :: e.1, i :: e.2))) :
          Except PyErr (List (List ℝ × List ℕ))) = .ok y ∧
        ∃ i, (vs[i]? = some v ∧ ∀ k < i, vs[k]? ≠ some v) ∧
          y = rest.map (fun e => (v :: e.1, i :: e.2)) := by
      intro v hvs
      obtain ⟨i, hi, hx, hf⟩ := getValueIndex_first hp hvs
      refine ⟨_, ?_, i, ⟨hx, hf⟩, rfl⟩
      simp only [hi, hrest, bind, Except.bind]
    obtain ⟨blocks, hb, hF⟩ := mapM_forall₂ hblock
    refine ⟨blocks.flatten, ?_, fun idx => ?_⟩
    · simp only [GridSearch.gridPoints, hp, bind, Except.bind] at hb ⊢
      rw [hb]
    · have hlen := hF.length_eq
      constructor
      · intro hm
        obtain ⟨pt, hpt, rfl⟩ := List.mem_map.1 hm
        obtain ⟨v, -, y, -, ⟨i, ⟨h1, h2⟩, rfl⟩, hby⟩ := (mem_flatten_forall₂ hF).1 hpt
        obtain ⟨e, he, rfl⟩ := List.mem_map.1 hby
        exact .cons ⟨(List.getElem?_eq_some_iff.1 h1).1, fun k hk => by rw [h1]; exact h2 k hk⟩
          ((hn e.2).1 (List.mem_map_of_mem he))
      · intro hm
        cases hm with
        | @cons i _ idx _ hi hm =>
          obtain ⟨hil, hfirst⟩ := hi
          obtain ⟨e, he, hidx⟩ := List.mem_map.1 ((hn idx).2 hm)
          have hvi : vs[i]? = some vs[i] := List.getElem?_eq_getElem hil
          have hR := List.Forall₂.get hF hil (by omega)
          obtain ⟨i', ⟨h1, h2⟩, hy⟩ := hR
          have hii : i' = i := by
            simp only [List.get_eq_getElem] at h1 h2
            rcases lt_trichotomy i' i with hlt | heq | hgt
            · exact absurd (h1.trans hvi.symm) (hfirst i' hlt)
            · exact heq
            · exact absurd hvi (h2 i hgt)
          subst hii
          refine List.mem_map.2 ⟨(vs[i'] :: e.1, i' :: e.2), ?_, by rw [hidx]⟩
          rw [List.mem_flatten]
          refine ⟨_, List.get_mem blocks ⟨i', by omega⟩, ?_⟩
          rw [hy]
          exact List.mem_map.2 ⟨e, he, by simp⟩

/-- Points that are visited again with the same values. -/
theorem fillGrid_again {funct : List ℝ → Except PyErr (FitVal × ℝ)} {F : List ℝ → FitVal}
    {P : List ℝ → ℝ} (pts : List (List ℝ × List ℕ)) :
    ∀ {g : GridSearch}, g.Ready →
    (∀ pt ∈ pts, funct pt.1 = .ok (F pt.1, P pt.1) ∧ g.Fits (F pt.1) ∧ InB g.fitShape pt.2) →
    (∀ pt ∈ pts, ∀ q ∈ pts, pt.2 = q.2 → pt.1 = q.1) →
    ∃ g', g.fillGrid funct pts = .ok g' ∧ ∀ pt ∈ pts,
        (∀ j, InB g.cellShape j → g'.stats.get (pt.2 ++ j) = (F pt.1).cells.get j) ∧
        g'.penalties.get pt.2 = P pt.1 := by
  induction pts with
  | nil =>
    intro g hr _ _
    exact ⟨g, rfl, fun pt h => absurd h (by simp)⟩
  | cons pt pts ih =>
    intro g hr h hc
    obtain ⟨h1, h2, h3⟩ := h pt List.mem_cons_self
    have hstep := fillPoint_ok hr h1 h2 h3
    have hrest : ∀ q ∈ pts, funct q.1 = .ok (F q.1, P q.1) ∧
        (g.written (F pt.1) (P pt.1) pt.2).Fits (F q.1) ∧
        InB (g.written (F pt.1) (P pt.1) pt.2).fitShape q.2 := fun q hq => h q (List.mem_cons_of_mem _ hq)
    have hr' := written_ready hr (F pt.1) (P pt.1) pt.2
    obtain ⟨g', hg', hw⟩ := ih hr' hrest
      (fun a ha b hb => hc a (List.mem_cons_of_mem _ ha) b (List.mem_cons_of_mem _ hb))
    obtain ⟨g₂, hg₂, -, -, hun, -⟩ := fillGrid_ok pts hr' hrest
    rw [hg'] at hg₂
    cases hg₂
    refine ⟨g', ?_, fun q hq => ?_⟩
    · simp only [GridSearch.fillGrid, bind, Except.bind, hstep]
      exact hg'
    rcases List.mem_cons.1 hq with rfl | hq
    · by_cases hm : q.2 ∈ pts.map Prod.snd
      · obtain ⟨e, he, hee⟩ := List.mem_map.1 hm
        have := hc e (List.mem_cons_of_mem _ he) q List.mem_cons_self hee
        have hwe := hw e he
        rw [this, hee] at hwe
        exact hwe
      · obtain ⟨a, b⟩ := hun q.2 h3 hm
        refine ⟨fun j hj => (a j).trans ?_, b.trans ?_⟩
        · simp only [GridSearch.written, List.take_left, List.drop_left, if_true]
          cases hF : F q.1 with
          | scalar y => simp [FitVal.cells]
          | array a =>
            rw [hF] at h2
            have hpb : g.perBin = true := h2.1
            simp only [GridSearch.cellShape, hpb, if_true] at hj
            simp only [FitVal.cells, h2.2, bcastIdx_self hj]
        · simp [GridSearch.written]
    · exact hw q hq

/-- **C43, exactly.** For every grid, also with repeated values: a grid point whose positions are the
first ones with these values holds what the function returned for them. Every other grid point keeps
what it held before. -/
theorem c43_exactly {g : GridSearch} (hr : g.Ready) {vss : List (List ℝ)}
    {funct : List ℝ → Except PyErr (FitVal × ℝ)} {F : List ℝ → FitVal} {P : List ℝ → ℝ}
    (h : g.Setup vss funct F P) (st : Stat) :
    ∃ g' raw pen, g.minimise funct st = .ok (g', raw, pen) ∧
      ∀ idx w, ValuesAt vss idx w →
        (FirstOccurrence vss idx →
          (∀ j, InB g.cellShape j → g'.stats.get (idx ++ j) = (F w).cells.get j) ∧
          g'.penalties.get idx = P w) ∧
        (¬ FirstOccurrence vss idx → (∀ j, g'.stats.get (idx ++ j) = g.stats.get (idx ++ j)) ∧
          g'.penalties.get idx = g.penalties.get idx) := by
  obtain ⟨pts, g₁, g', raw, pen, p, v, h1, h2, h3, h4, ⟨pars', h5, _⟩, _⟩ := minimise_ok hr h st
  refine ⟨g', raw, pen, h3, fun idx w hw => ?_⟩
  obtain ⟨pts', h6, hval, -⟩ := gridPoints_ok h.values
  obtain ⟨pts'', h7, hfirst⟩ := gridPoints_first h.values
  rw [h1] at h6 h7
  cases h6
  cases h7
  have hshape := (Setup.shape h).1
  have hin : ∀ pt ∈ pts, funct pt.1 = .ok (F pt.1, P pt.1) ∧ g.Fits (F pt.1) ∧
      InB g.fitShape pt.2 := by
    intro pt hpt
    have := h.returns _ (hval pt hpt).comb
    exact ⟨this.1, this.2, hshape ▸ (hval pt hpt).inB⟩
  obtain ⟨g₂, h8, _, _, hun, -⟩ := fillGrid_ok pts hr hin
  obtain ⟨g₃, h9, hw3⟩ := fillGrid_again pts hr hin fun a ha b hb hab => by
    have := hval b hb
    rw [← hab] at this
    exact (hval a ha).eq this
  rw [h2] at h8 h9
  cases h8
  cases h9
  rw [h5]
  refine ⟨fun hf => ?_, fun hf => ?_⟩
  · obtain ⟨pt, hpt, rfl⟩ := List.mem_map.1 ((hfirst idx).2 hf)
    have e := (hval pt hpt).eq hw
    have := hw3 pt hpt
    rw [e] at this
    exact this
  · exact hun idx (hshape ▸ hw.inB) fun hm => hf ((hfirst idx).1 hm)

/-- **C43, what is returned.** When a grid has a repeated value and holds zeros before, the search
returns zero for every function whose statistic plus penalty is positive everywhere, instead of the
smallest value. -/
theorem c43_repeated_zero {g : GridSearch} (hr : g.Ready) {vss : List (List ℝ)}
    {funct : List ℝ → Except PyErr (FitVal × ℝ)} {F : List ℝ → FitVal} {P : List ℝ → ℝ}
    (h : g.Setup vss funct F P) (st : Stat) (h0 : ∀ idx, g.stats.get idx = 0)
    (h0' : ∀ idx, g.penalties.get idx = 0) (hrep : ∃ vs ∈ vss, ¬ vs.Nodup)
    (hpos : ∀ w, Combination vss w → 0 < objective F P w) :
    ∃ g' raw pen, g.minimise funct st = .ok (g', raw, pen) ∧
      (∀ j, InB g.cellShape j → raw.get j = 0) ∧ pen.get [] = 0 := by
  obtain ⟨pts, g₁, g', raw, pen, p, v, h1, h2, h3, h4, ⟨pars', h5, _⟩, -, hv, hmin, hraw, hpen⟩ :=
    minimise_ok hr h st
  obtain ⟨g'', raw', pen', h3', hall⟩ := c43_exactly hr h st
  rw [h3] at h3'
  obtain ⟨rfl, rfl, rfl⟩ : g' = g'' ∧ raw = raw' ∧ pen = pen' := by
    have := Except.ok.inj h3'
    simp only [Prod.mk.injEq] at this
    exact this
  have hshape := (Setup.shape h).1
  have e1 : g₁.stats = g'.stats := by rw [h5]
  have e2 : g₁.penalties = g'.penalties := by rw [h5]
  rw [e1, e2] at hmin
  rw [e1] at hraw
  rw [e2] at hpen
  -- a grid point that is not a first one
  obtain ⟨q, hq, hqf⟩ : ∃ q, InB (vss.map List.length) q ∧ ¬ FirstOccurrence vss q := by
    have hne : ∀ vs ∈ vss, vs ≠ [] := fun vs hm => by
      obtain ⟨p, -, hp⟩ := forall₂_mem_left h.counts.flip hm
      exact hp.2
    clear * - hrep hne
    induction vss with
    | nil => simp at hrep
    | cons vs vss ih =>
      by_cases hd : vs.Nodup
      · obtain ⟨q, hq, hqf⟩ := ih (by
          obtain ⟨us, hus, hn⟩ := hrep
          rcases List.mem_cons.1 hus with rfl | hus
          · exact absurd hd hn
          · exact ⟨us, hus, hn⟩) fun us hus => hne us (by simp [hus])
        refine ⟨0 :: q, ?_, fun hf => ?_⟩
        · rw [List.map_cons, inB_cons_cons]
          exact ⟨List.length_pos_of_ne_nil (hne vs (by simp)), hq⟩
        · cases hf with
          | cons _ hf => exact hqf hf
      · obtain ⟨i, j, hij, hj, he⟩ : ∃ i j, i < j ∧ ∃ hj : j < vs.length, vs[i]? = vs[j]? := by
          rw [List.nodup_iff_getElem?_ne_getElem?] at hd
          push Not at hd
          obtain ⟨i, j, h1, h2, h3⟩ := hd
          exact ⟨i, j, h1, h2, h3⟩
        refine ⟨j :: (vss.map fun _ => 0), ?_, fun hf => ?_⟩
        · rw [List.map_cons, inB_cons_cons]
          refine ⟨hj, ?_⟩
          have hne' : ∀ us ∈ vss, us ≠ [] := fun us hus => hne us (by simp [hus])
          clear * - hne'
          induction vss with
          | nil => simp
          | cons us vss ih =>
            simp only [List.map_cons, inB_cons_cons]
            exact ⟨List.length_pos_of_ne_nil (hne' us (by simp)), ih fun x hx => hne' x (by simp [hx])⟩
        · cases hf with
          | cons hf _ => exact hf.2 i hij he
  obtain ⟨wq, hwq⟩ := ValuesAt.exists hq
  obtain ⟨z1, z2⟩ := (hall q wq hwq).2 hqf
  have hzero : sumIdx g.cellShape (fun j => g'.stats.get (q ++ j)) + g'.penalties.get q = 0 := by
    rw [z2, h0', add_zero, sumIdx_congr (fun j _ => (z1 j).trans (h0 _))]
    exact sumIdx_zero _
  have hle := (hmin.2 q (hshape ▸ hq)).1
  dsimp only at hle
  rw [hzero] at hle
  have hnf : ¬ FirstOccurrence vss p := by
    intro hf
    obtain ⟨a, b⟩ := (hall p v hv).1 hf
    have := hpos v hv.comb
    unfold objective at this
    rw [sumIdx_congr (fun j hj => a j hj), b] at hle
    have hs : (F v).cells.shape = g.cellShape := by
      have := (h.returns v hv.comb).2
      cases hF : F v with
      | scalar x =>
        rw [hF] at this
        have hpb : g.perBin = false := this
        simp [FitVal.cells, GridSearch.cellShape, hpb]
      | array a =>
        rw [hF] at this
        simp [FitVal.cells, GridSearch.cellShape, this.1, this.2]
    rw [NdArray.sum, hs] at this
    linarith
  obtain ⟨y1, y2⟩ := (hall p v hv).2 hnf
  refine ⟨g', raw, pen, h3, fun j _ => ?_, ?_⟩
  · rw [hraw]
    exact (y1 j).trans (h0 _)
  · rw [hpen]
    simp only [List.append_nil]
    exact y2.trans (h0' _)

/-- Two parameters, one of them with a repeated value. -/
noncomputable def exRepeated2 : GridSearch :=
  GridSearch.new
    [{ name := lit "rate", prior := 1, sigma := none, low := 1, high := 3, bins := 3,
       values := some [1, 3, 1] },
     { name := lit "shift", prior := 1, sigma := none, low := 5, high := 6, bins := 2,
       values := some [5, 6] }] [] none false

theorem ex_repeated2 : exRepeated2.Ready ∧ exRepeated2.Setup [[1, 3, 1], [5, 6]]
    (fun w => .ok (.scalar (7 + w.sum), 0)) (fun w => .scalar (7 + w.sum)) (fun _ => 0) := by
  refine ⟨⟨rfl, rfl⟩, .cons rfl (.cons rfl .nil), .cons ⟨rfl, by simp⟩ (.cons ⟨rfl, by simp⟩ .nil),
    fun w _ => ⟨rfl, rfl⟩, ?_, Or.inl rfl⟩
  intro p hp
  have : p.sigma = none := by
    simp only [exRepeated2, GridSearch.new, List.mem_cons, List.not_mem_nil, or_false] at hp
    rcases hp with rfl | rfl <;> rfl
  rw [this]
  simp

/-- The point (1, 5) is visited at its first position only. -/
example : FirstOccurrence [[1, 3, 1], [5, 6]] [0, 1] ∧ ¬ FirstOccurrence [[1, 3, 1], [5, 6]] [2, 1] := by
  refine ⟨.cons ⟨by simp, by simp⟩ (.cons ⟨by simp, fun k hk => ?_⟩ .nil), fun h => ?_⟩
  · obtain rfl : k = 0 := by omega
    norm_num
  · cases h with
    | cons h _ => exact h.2 0 (by norm_num) (by simp)

/-- The statistic is at least 13, but zero is returned. -/
example : ∃ g' raw pen, exRepeated2.minimise (fun w => .ok (.scalar (7 + w.sum), 0)) .bcChi =
    .ok (g', raw, pen) ∧ (∀ j, InB exRepeated2.cellShape j → raw.get j = 0) ∧ pen.get [] = 0 := by
  refine c43_repeated_zero ex_repeated2.1 ex_repeated2.2 .bcChi (fun _ => rfl) (fun _ => rfl)
    ⟨[1, 3, 1], by simp, by simp⟩ fun w hw => ?_
  have hw : ∀ x ∈ w, 0 ≤ x := by
    intro x hx
    obtain ⟨vs, hvs, hxv⟩ := forall₂_mem_left hw hx
    have : vs = [1, 3, 1] ∨ vs = [5, 6] := by simpa using hvs
    rcases this with rfl | rfl
    · have : x = 1 ∨ x = 3 ∨ x = 1 := by simpa using hxv
      rcases this with rfl | rfl | rfl <;> norm_num
    · have : x = 5 ∨ x = 6 := by simpa using hxv
      rcases this with rfl | rfl <;> norm_num
  have := List.sum_nonneg hw
  simp [objective, FitVal.cells, NdArray.sum]
  linarith

end Verif
