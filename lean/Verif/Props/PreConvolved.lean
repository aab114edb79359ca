import Verif.Lemmas.PreConvolved

/-! # C61: names of pre-convolved files -/

namespace Verif

theorem Tagged.ending {k : ParKind} {v : ℝ} {folder ext : PyStr} (h : Tagged k v folder ext) :
    Ending ext := by
  cases h
  · exact .ly
  · exact .rs
  · exact .sc
  · exact .sh

theorem Tagged.folder_ne {k : ParKind} {v : ℝ} {folder ext : PyStr} (h : Tagged k v folder ext) :
    folder ≠ [] ∧ '/' ∉ folder := by
  cases h <;> decide

theorem Tagged.preKind {k : ParKind} {v : ℝ} {folder ext : PyStr} (h : Tagged k v folder ext) :
    preKind k v = some (folder, ext) ∧ k ≠ .rate := by
  cases h with
  | lightYield _ h => exact ⟨by simp only [Verif.preKind, if_pos h], by decide⟩
  | resolution _ h => exact ⟨by simp only [Verif.preKind, if_neg (not_lt.2 h)], by decide⟩
  | scale => exact ⟨rfl, by decide⟩
  | shift => exact ⟨rfl, by decide⟩

theorem Tagged.folder_eq {k k' : ParKind} {v v' : ℝ} {f f' ext : PyStr} (h : Tagged k v f ext)
    (h' : Tagged k' v' f' ext) : f = f' := by
  generalize he : ext = e at h'
  cases h <;> cases h' <;> first | rfl | cases he

theorem preStepPar_in {show' : ℝ → PyStr} {k : ParKind} {p : FitPar} {dim d f : PyStr}
    (hd : p.dimension = some dim) (h : dim <:+: d) :
    preStepPar show' (d, f) (k, p) = getPreConvolved show' k p d f := by
  simp only [preStepPar, hd, if_pos h]

theorem preStepPar_not_in {show' : ℝ → PyStr} {k : ParKind} {p : FitPar} {dim d f : PyStr}
    (hd : p.dimension = some dim) (h : ¬ dim <:+: d) :
    preStepPar show' (d, f) (k, p) = getPreConvolved show' k p (d ++ (dim ++ ['/'])) f true := by
  simp only [preStepPar, hd, if_neg h]

theorem getPreConvolved_tagged {show' : ℝ → PyStr} {k : ParKind} {p : FitPar} {v : ℝ}
    {folder ext w : PyStr} (ht : Tagged k v folder ext) (hv : p.current = some v)
    (hw : Written (show' v) w) (parts : List PyStr) (hne : parts ≠ [])
    (hp : ∀ c ∈ parts, Part c) (directory : PyStr) (added : Bool) :
    getPreConvolved show' k p directory (fileName parts) added =
      (preDir folder p.dimension directory added).map
        (fun d => (d, fileName (retag w ext parts))) := by
  obtain ⟨h1, h2⟩ := ht.preKind
  have h3 := preName_fileName (value := w) ht.ending parts hne hp
  unfold getPreConvolved
  rw [hv]
  cases k with
  | rate => exact absurd rfl h2
  | resolution | shift | scale =>
    simp only [h1, bind, Except.bind, valueString_written hw, h3]
    cases preDir folder p.dimension directory added <;> rfl

/-- **C61, one parameter.** For a file in the folder of the dimension of the parameter, or
in folders below it, the name gets the value with the ending of the parameter, in place of the
parts with that ending or else at the end; all other parts are kept. The folder of the
parameter is added unless it is already there. When the folder of the dimension has just been
added, the folder of the parameter is added in any case. -/
theorem c61_name (show' : ℝ → PyStr) (k : ParKind) (p : FitPar) (v : ℝ) (folder ext w : PyStr)
    (ht : Tagged k v folder ext) (hv : p.current = some v) (hw : Written (show' v) w)
    (parts : List PyStr) (hne : parts ≠ []) (hp : ∀ c ∈ parts, Part c)
    (dim : PyStr) (hd : p.dimension = some dim) (hdim : '/' ∉ dim) (hdne : dim ≠ [])
    (pre fs : List PyStr) (hpre : ∀ f ∈ pre, '/' ∉ f) (hfs : ∀ f ∈ fs, '/' ∉ f)
    (hnot : dim ∉ fs) :
    getPreConvolved show' k p (folders (pre ++ dim :: fs)) (fileName parts) =
      .ok (folders (pre ++ dim :: (if folder ∈ fs then fs else fs ++ [folder])),
        fileName (retag w ext parts)) ∧
    getPreConvolved show' k p (folders (pre ++ [dim])) (fileName parts) true =
      .ok (folders (pre ++ [dim, folder]), fileName (retag w ext parts)) := by
  constructor
  · rw [getPreConvolved_tagged ht hv hw parts hne hp, hd,
      preDir_folders folder dim pre fs hdim hdne hpre hfs hnot ht.folder_ne.1]
    rfl
  · rw [getPreConvolved_tagged ht hv hw parts hne hp,
      preDir_added folder p.dimension _ (by simp), List.append_assoc]
    rfl

/-- A scale parameter with a current value. -/
noncomputable def Ex.scalePar (dim : PyStr) (v : ℝ) : FitPar :=
  { FitPar.new (dim ++ lit "_scale") 1 none 0 2 5 (some dim) with current := some v }

example : Tagged .scale (11 / 10) (lit "scale") (lit "sc") ∧
    Written (lit "1.1") (lit "1.1") ∧ Written (lit "200.0") (lit "200") ∧
    (∀ c ∈ [lit "Te130", lit "mc"], Part c) ∧
    retag (lit "1.1") (lit "sc") [lit "Te130", lit "mc"] = [lit "Te130", lit "mc", lit "1.1sc"] ∧
    retag (lit "1.1") (lit "sc") [lit "Te130", lit "1sc", lit "5rs"] =
      [lit "Te130", lit "1.1sc", lit "5rs"] := by
  refine ⟨.scale _, .kept (lit "1.") '1' (by decide) (by decide) (by decide) (by decide) (by decide),
    .whole (lit "200") (by decide) (by decide) (by decide), ?_, ?_, ?_⟩
  · intro c hc
    simp only [List.mem_cons, List.not_mem_nil, or_false] at hc
    rcases hc with rfl | rfl
    · exact ⟨by decide, by decide⟩
    · exact ⟨by decide, by decide⟩
  · unfold retag
    rw [if_neg (by decide)]
    rfl
  · unfold retag
    rw [if_pos (by decide)]
    decide

theorem retag_part {w ext : PyStr} (he : Ending ext) (hw : '_' ∉ w) {parts : List PyStr}
    (hp : ∀ c ∈ parts, Part c) : ∀ c ∈ retag w ext parts, Part c := by
  have hnew : Part (w ++ ext) := by
    refine ⟨?_, he.not_hdf5 w⟩
    rw [List.mem_append]
    rintro (h | h)
    · exact hw h
    · exact he.no_sep h
  intro c hc
  unfold retag at hc
  split at hc
  · obtain ⟨d, hd, rfl⟩ := List.mem_map.1 hc
    split
    · exact hnew
    · exact hp d hd
  · rw [List.mem_append, List.mem_singleton] at hc
    rcases hc with hc | rfl
    · exact hp c hc
    · exact hnew

theorem retag_ne_nil {w ext : PyStr} {parts : List PyStr} (h : parts ≠ []) :
    retag w ext parts ≠ [] := by
  unfold retag
  split
  · simpa using h
  · simp

theorem retag_retag (w w' ext : PyStr) (parts : List PyStr) :
    retag w' ext (retag w ext parts) = retag w' ext parts := by
  unfold retag
  by_cases h : ∃ c ∈ parts, ext <:+ c
  · rw [if_pos h, if_pos, if_pos h, List.map_map]
    · refine List.map_congr_left (fun c hc => ?_)
      simp only [Function.comp_def]
      by_cases hx : ext <:+ c
      · rw [if_pos hx, if_pos (List.suffix_append w ext), if_pos hx]
      · rw [if_neg hx, if_neg hx]
    · obtain ⟨c, hc, hx⟩ := h
      refine ⟨_, List.mem_map_of_mem hc, ?_⟩
      rw [if_pos hx]
      exact List.suffix_append w ext
  · rw [if_neg h, if_pos ⟨w ++ ext, by simp, List.suffix_append w ext⟩, if_neg h, List.map_append,
      List.map_singleton, if_pos (List.suffix_append w ext)]
    congr 1
    conv_rhs => rw [← List.map_id parts]
    refine List.map_congr_left (fun c hc => ?_)
    rw [if_neg (fun hx => h ⟨c, hc, hx⟩)]
    rfl

/-- **C61, changing the value.** Computing the name for one value and from there the name for
another value of the same kind gives the same as computing the name for the other value; in
particular the same value twice changes nothing more. -/
theorem c61_last_value (show' : ℝ → PyStr) (k : ParKind) (p q : FitPar) (v v' : ℝ)
    (folder ext w w' : PyStr) (ht : Tagged k v folder ext) (ht' : Tagged k v' folder ext)
    (hv : p.current = some v) (hv' : q.current = some v')
    (hw : Written (show' v) w) (hw' : Written (show' v') w')
    (parts : List PyStr) (hne : parts ≠ []) (hp : ∀ c ∈ parts, Part c)
    (dim : PyStr) (hd : p.dimension = some dim) (hd' : q.dimension = some dim) (hdim : '/' ∉ dim)
    (hdne : dim ≠ []) (hdf : dim ≠ folder)
    (pre fs : List PyStr) (hpre : ∀ f ∈ pre, '/' ∉ f) (hfs : ∀ f ∈ fs, '/' ∉ f)
    (hnot : dim ∉ fs) :
    ∃ d f, getPreConvolved show' k p (folders (pre ++ dim :: fs)) (fileName parts) = .ok (d, f) ∧
      getPreConvolved show' k q d f =
        getPreConvolved show' k q (folders (pre ++ dim :: fs)) (fileName parts) := by
  refine ⟨_, _, (c61_name show' k p v folder ext w ht hv hw parts hne hp dim hd hdim hdne pre fs
    hpre hfs hnot).1, ?_⟩
  rw [(c61_name show' k q v' folder ext w' ht' hv' hw' parts hne hp dim hd' hdim hdne pre fs
    hpre hfs hnot).1]
  rw [(c61_name show' k q v' folder ext w' ht' hv' hw' (retag w ext parts) (retag_ne_nil hne)
    (retag_part ht.ending hw.no_sep hp) dim hd' hdim hdne pre
    (if folder ∈ fs then fs else fs ++ [folder]) hpre ?_ ?_).1, retag_retag]
  · congr 5
    by_cases h : folder ∈ fs
    · simp [h]
    · simp [h]
  · intro f hf
    split at hf
    · exact hfs f hf
    · rw [List.mem_append, List.mem_singleton] at hf
      rcases hf with hf | rfl
      · exact hfs f hf
      · exact ht.folder_ne.2
  · split
    · exact hnot
    · rw [List.mem_append, List.mem_singleton]
      rintro (h | h)
      · exact hnot h
      · exact hdf h

/-- **C61, different values.** Values with different texts give different file names. -/
theorem c61_distinct_partial (show' : ℝ → PyStr) (k : ParKind) (p q : FitPar) (v v' : ℝ)
    (folder ext w w' : PyStr) (ht : Tagged k v folder ext) (ht' : Tagged k v' folder ext)
    (hv : p.current = some v) (hv' : q.current = some v')
    (hw : Written (show' v) w) (hw' : Written (show' v') w') (hne' : show' v ≠ show' v')
    (parts : List PyStr) (hne : parts ≠ []) (hp : ∀ c ∈ parts, Part c)
    (directory directory' d d' f f' : PyStr) (added added' : Bool)
    (h : getPreConvolved show' k p directory (fileName parts) added = .ok (d, f))
    (h' : getPreConvolved show' k q directory' (fileName parts) added' = .ok (d', f')) :
    f ≠ f' := by
  rw [getPreConvolved_tagged ht hv hw parts hne hp] at h
  rw [getPreConvolved_tagged ht' hv' hw' parts hne hp] at h'
  cases h1 : preDir folder p.dimension directory added with
  | error e => rw [h1] at h; cases h
  | ok d1 =>
    rw [h1] at h
    cases h2 : preDir folder q.dimension directory' added' with
    | error e => rw [h2] at h'; cases h'
    | ok d2 =>
      rw [h2] at h'
      cases h
      cases h'
      intro heq
      have := fileName_injective
        (fun c hc => (retag_part ht.ending hw.no_sep hp c hc).1)
        (fun c hc => (retag_part ht'.ending hw'.no_sep hp c hc).1)
        (retag_ne_nil hne) (retag_ne_nil hne) heq
      have hww : w = w' := by
        unfold retag at this
        split at this
        · rename_i hex
          obtain ⟨c, hc, hx⟩ := hex
          have := List.map_inj_left.1 this c hc
          rw [if_pos hx, if_pos hx] at this
          exact List.append_cancel_right this
        · have := List.append_cancel_left this
          simp only [List.cons.injEq, and_true] at this
          exact List.append_cancel_right this
      subst hww
      exact hne' (written_injective hw hw')

/-- **C61 fails for whole numbers written without a point**: their zeros are cut off, so 1, 10
and 100 share a file. -/
theorem c61_whole_negation (show' : ℝ → PyStr) (h1 : show' 1 = lit "1") (h10 : show' 10 = lit "10")
    (dim : PyStr) (hdim : '/' ∉ dim) (hne : dim ≠ []) (parts : List PyStr) :
    ∃ r, getPreConvolved show' .scale (Ex.scalePar dim 1) (folders [dim]) (fileName parts) = .ok r ∧
      getPreConvolved show' .scale (Ex.scalePar dim 10) (folders [dim]) (fileName parts) =
        .ok r := by
  have hd := preDir_folders (lit "scale") dim [] [] hdim hne (by simp) (by simp) (by simp) (by decide)
  rw [List.nil_append] at hd
  refine ⟨(folders [dim, lit "scale"], preName (lit "1") (lit "sc") (fileName parts)), ?_, ?_⟩
  · unfold getPreConvolved
    simp only [Ex.scalePar, FitPar.new, preKind, h1, bind, Except.bind, hd]
    rfl
  · unfold getPreConvolved
    simp only [Ex.scalePar, FitPar.new, preKind, h10, bind, Except.bind, hd]
    rfl

/-- **C61 fails for parts that happen to end like a tag**: the files of two different
backgrounds get the same name. -/
theorem c61_other_part_negation (show' : ℝ → PyStr) (v : ℝ) (w : PyStr) (hw : Written (show' v) w) :
    ∃ r, getPreConvolved show' .scale (Ex.scalePar (lit "energy") v) (lit "energy/")
        (lit "disc_reco.hdf5") = .ok r ∧
      getPreConvolved show' .scale (Ex.scalePar (lit "energy") v) (lit "energy/")
        (lit "misc_reco.hdf5") = .ok r := by
  have hpart : ∀ s : PyStr, '_' ∉ s → ¬ lit ".hdf5" <:+ s → ∀ c ∈ [s, lit "reco"], Part c := by
    intro s h1 h2 c hc
    simp only [List.mem_cons, List.not_mem_nil, or_false] at hc
    rcases hc with rfl | rfl
    · exact ⟨h1, h2⟩
    · exact ⟨by decide, by decide⟩
  have h1 := (c61_name show' .scale (Ex.scalePar (lit "energy") v) v (lit "scale") (lit "sc") w
    (.scale v) rfl hw [lit "disc", lit "reco"] (by simp) (hpart _ (by decide) (by decide))
    (lit "energy") rfl (by decide) (by decide) [] [] (by simp) (by simp) (by simp)).1
  have h2 := (c61_name show' .scale (Ex.scalePar (lit "energy") v) v (lit "scale") (lit "sc") w
    (.scale v) rfl hw [lit "misc", lit "reco"] (by simp) (hpart _ (by decide) (by decide))
    (lit "energy") rfl (by decide) (by decide) [] [] (by simp) (by simp) (by simp)).1
  refine ⟨_, h1, ?_⟩
  have : retag w (lit "sc") [lit "disc", lit "reco"] = retag w (lit "sc") [lit "misc", lit "reco"] := by
    unfold retag
    rw [if_pos (by decide), if_pos (by decide)]
    rfl
  rw [this]
  exact h2

/-- **C61 fails across the limit of 10**: a resolution tag of a light yield is kept when the
value becomes a resolution, so the name claims both. -/
theorem c61_resolution_negation (show' : ℝ → PyStr) (p : FitPar) (v : ℝ) (w : PyStr)
    (hw : Written (show' v) w) (hv : v ≤ 10) (hp : p.current = some v)
    (hd : p.dimension = some (lit "energy")) :
    getPreConvolved show' .resolution p (lit "energy/smear/") (lit "Te130_200ly.hdf5") =
      .ok (lit "energy/smear/", fileName [lit "Te130", lit "200ly", w ++ lit "rs"]) := by
  have := (c61_name show' .resolution p v (lit "smear") (lit "rs") w (.resolution v hv) hp hw
    [lit "Te130", lit "200ly"] (by simp) (by
      intro c hc
      simp only [List.mem_cons, List.not_mem_nil, or_false] at hc
      rcases hc with rfl | rfl <;> exact ⟨by decide, by decide⟩)
    (lit "energy") hd (by decide) (by decide) [] [lit "smear"] (by simp) (by decide)
    (by decide)).1
  rw [show retag w (lit "rs") [lit "Te130", lit "200ly"] = [lit "Te130", lit "200ly", w ++ lit "rs"]
    from by unfold retag; rw [if_neg (by decide)]; rfl] at this
  exact this

/-! ### several parameters -/

/-- What one parameter with a value adds: folder and tag. -/
structure Step where
  kind : ParKind
  par : FitPar
  folder : PyStr
  tag : PyStr

/-- The step for a parameter of the dimension. -/
def Step.Ok (show' : ℝ → PyStr) (dim : PyStr) (s : Step) : Prop :=
  s.par.dimension = some dim ∧ ∃ v ext w, Tagged s.kind v s.folder ext ∧ s.par.current = some v ∧
    Written (show' v) w ∧ s.tag = w ++ ext

theorem steps_fold (show' : ℝ → PyStr) (dim : PyStr) (hdim : '/' ∉ dim) (hdne : dim ≠ [])
    (pre : List PyStr) (hpre : ∀ f ∈ pre, '/' ∉ f) (steps : List Step)
    (hok : ∀ s ∈ steps, s.Ok show' dim) (hfold : (steps.map (·.folder)).Nodup)
    (hdf : ∀ s ∈ steps, s.folder ≠ dim)
    (fs parts : List PyStr) (hfs : ∀ f ∈ fs, '/' ∉ f) (hnot : dim ∉ fs) (hne : parts ≠ [])
    (hp : ∀ c ∈ parts, Part c) (hdis : ∀ s ∈ steps, s.folder ∉ fs)
    (hfree : ∀ s ∈ steps, ∀ ext v, Tagged s.kind v s.folder ext → ∀ c ∈ parts, ¬ ext <:+ c) :
    prePath show' (folders (pre ++ dim :: fs)) (fileName parts)
        (steps.map (fun s => (s.kind, s.par))) =
      .ok (folders (pre ++ dim :: (fs ++ steps.map (·.folder))),
        fileName (parts ++ steps.map (·.tag))) := by
  induction steps generalizing fs parts with
  | nil => simp [prePath]; rfl
  | cons s steps ih =>
    obtain ⟨hsd, v, ext, w, ht, hv, hw, htag⟩ := hok s List.mem_cons_self
    have hin : dim <:+: folders (pre ++ dim :: fs) := by
      rw [folders_append]
      refine ⟨folders pre, '/' :: folders fs, ?_⟩
      simp [folders]
    have hsf : s.folder ∉ fs := hdis s List.mem_cons_self
    have hnoext : ¬ ∃ c ∈ parts, ext <:+ c := fun ⟨c, hc, hx⟩ =>
      hfree s List.mem_cons_self ext v ht c hc hx
    unfold prePath at ih ⊢
    rw [List.map_cons, List.foldlM_cons]
    have h1 := (c61_name show' s.kind s.par v s.folder ext w ht hv hw parts hne hp dim hsd hdim hdne
      pre fs hpre hfs hnot).1
    rw [if_neg hsf, retag, if_neg hnoext] at h1
    rw [preStepPar_in hsd hin, h1]
    simp only [bind, Except.bind]
    have hih := ih (fun t ht => hok t (List.mem_cons_of_mem _ ht))
      (List.nodup_cons.1 hfold).2 (fun t ht => hdf t (List.mem_cons_of_mem _ ht))
      (fs ++ [s.folder]) (parts ++ [w ++ ext])
      (by
        intro f hf
        rw [List.mem_append, List.mem_singleton] at hf
        rcases hf with hf | rfl
        · exact hfs f hf
        · exact ht.folder_ne.2)
      (by
        rw [List.mem_append, List.mem_singleton]
        rintro (h | h)
        · exact hnot h
        · exact hdf s List.mem_cons_self h.symm)
      (by simp)
      (by
        intro c hc
        rw [List.mem_append, List.mem_singleton] at hc
        rcases hc with hc | rfl
        · exact hp c hc
        · refine ⟨?_, ht.ending.not_hdf5 w⟩
          rw [List.mem_append]
          rintro (h | h)
          · exact hw.no_sep h
          · exact ht.ending.no_sep h)
      (by
        intro t htm
        rw [List.mem_append, List.mem_singleton]
        rintro (h | h)
        · exact hdis t (List.mem_cons_of_mem _ htm) h
        · have : s.folder ∉ steps.map (·.folder) := (List.nodup_cons.1 hfold).1
          rw [← h] at this
          exact this (List.mem_map_of_mem htm))
      (by
        intro t htm ext' v' ht' c hc
        rw [List.mem_append, List.mem_singleton] at hc
        rcases hc with hc | rfl
        · exact hfree t (List.mem_cons_of_mem _ htm) ext' v' ht' c hc
        · intro hx
          have h2 := List.suffix_of_suffix_length_le hx (List.suffix_append w ext)
            (by rw [ht'.ending.length, ht.ending.length])
          have h3 : ext' = ext := h2.eq_of_length (by rw [ht'.ending.length, ht.ending.length])
          have h4 : t.folder ≠ s.folder := by
            intro h
            have : s.folder ∉ steps.map (·.folder) := (List.nodup_cons.1 hfold).1
            rw [← h] at this
            exact this (List.mem_map_of_mem htm)
          rw [h3] at ht'
          exact h4 (ht'.folder_eq ht))
    rw [hih]
    simp [htag]

/-- **C61, several parameters.** From a base directory that ends with a slash and does not
mention the dimension, parameters of one dimension and of different kinds give the folder of
the dimension, then one folder per parameter in order, and a file name with one tag per
parameter in order. -/
theorem c61_several_partial (show' : ℝ → PyStr) (dim : PyStr) (hdim : '/' ∉ dim) (hdne : dim ≠ [])
    (pre : List PyStr) (hpre : ∀ f ∈ pre, '/' ∉ f) (hfree : ¬ dim <:+: folders pre)
    (steps : List Step) (hne : steps ≠ [])
    (hok : ∀ s ∈ steps, s.Ok show' dim) (hfold : (steps.map (·.folder)).Nodup)
    (hdf : ∀ s ∈ steps, s.folder ≠ dim)
    (parts : List PyStr) (hpn : parts ≠ []) (hp : ∀ c ∈ parts, Part c)
    (hend : ∀ c ∈ parts, ∀ ext ∈ [lit "ly", lit "rs", lit "sc", lit "sh"], ¬ ext <:+ c) :
    prePath show' (folders pre) (fileName parts) (steps.map (fun s => (s.kind, s.par))) =
      .ok (folders (pre ++ dim :: steps.map (·.folder)),
        fileName (parts ++ steps.map (·.tag))) := by
  have hno : ∀ k v folder ext, Tagged k v folder ext → ∀ c ∈ parts, ¬ ext <:+ c := by
    intro k v folder ext ht c hc
    refine hend c hc ext ?_
    cases ht <;> simp
  cases steps with
  | nil => exact absurd rfl hne
  | cons s steps =>
    obtain ⟨hsd, v, ext, w, ht, hv, hw, htag⟩ := hok s List.mem_cons_self
    have h1 := (c61_name show' s.kind s.par v s.folder ext w ht hv hw parts hpn hp dim hsd hdim hdne
      pre [] hpre (by simp) (by simp)).2
    have hnoext : ¬ ∃ c ∈ parts, ext <:+ c := fun ⟨c, hc, hx⟩ => hno _ _ _ _ ht c hc hx
    rw [retag, if_neg hnoext] at h1
    have hrest := steps_fold show' dim hdim hdne pre hpre steps
      (fun t ht => hok t (List.mem_cons_of_mem _ ht)) (List.nodup_cons.1 hfold).2
      (fun t ht => hdf t (List.mem_cons_of_mem _ ht)) [s.folder] (parts ++ [s.tag])
      (by
        intro f hf
        rw [List.mem_singleton] at hf
        rw [hf]
        exact ht.folder_ne.2)
      (by
        rw [List.mem_singleton]
        exact fun h => hdf s List.mem_cons_self h.symm)
      (by simp)
      (by
        intro c hc
        rw [List.mem_append, List.mem_singleton] at hc
        rcases hc with hc | rfl
        · exact hp c hc
        · rw [htag]
          refine ⟨?_, ht.ending.not_hdf5 w⟩
          rw [List.mem_append]
          rintro (h | h)
          · exact hw.no_sep h
          · exact ht.ending.no_sep h)
      (by
        intro t htm
        rw [List.mem_singleton]
        intro h
        have : s.folder ∉ steps.map (·.folder) := (List.nodup_cons.1 hfold).1
        rw [← h] at this
        exact this (List.mem_map_of_mem htm))
      (by
        intro t htm ext' v' ht' c hc
        rw [List.mem_append, List.mem_singleton] at hc
        rcases hc with hc | rfl
        · exact hno _ _ _ _ ht' c hc
        · intro hx
          rw [htag] at hx
          have h2 := List.suffix_of_suffix_length_le hx (List.suffix_append w ext)
            (by rw [ht'.ending.length, ht.ending.length])
          have h3 : ext' = ext := h2.eq_of_length (by rw [ht'.ending.length, ht.ending.length])
          have h4 : t.folder ≠ s.folder := by
            intro h
            have : s.folder ∉ steps.map (·.folder) := (List.nodup_cons.1 hfold).1
            rw [← h] at this
            exact this (List.mem_map_of_mem htm)
          rw [h3] at ht'
          exact h4 (ht'.folder_eq ht))
    unfold prePath at hrest ⊢
    rw [List.map_cons, List.foldlM_cons]
    have hdir : folders pre ++ (dim ++ ['/']) = folders (pre ++ [dim]) := by
      rw [folders_append]
      simp [folders]
    rw [preStepPar_not_in hsd hfree, hdir, h1]
    simp only [bind, Except.bind]
    rw [← htag]
    simpa using hrest

/-- Scaling and shifting of the energy. -/
noncomputable def Ex.steps : List Step :=
  [⟨.scale, Ex.scalePar (lit "energy") (11 / 10), lit "scale", lit "1.1sc"⟩,
   ⟨.shift, Ex.scalePar (lit "energy") 2, lit "shift", lit "2sh"⟩]

example (show' : ℝ → PyStr) (h1 : show' (11 / 10) = lit "1.1") (h2 : show' 2 = lit "2.0") :
    prePath show' (lit "/data/pre/") (lit "Te130_mc.hdf5")
      (Ex.steps.map (fun s => (s.kind, s.par))) =
      .ok (lit "/data/pre/energy/scale/shift/", lit "Te130_mc_1.1sc_2sh.hdf5") := by
  refine c61_several_partial show' (lit "energy") (by decide) (by decide)
    [[], lit "data", lit "pre"] (by decide) (by decide) Ex.steps (by simp [Ex.steps]) ?_ ?_ ?_
    [lit "Te130", lit "mc"] (by simp) ?_ (by decide)
  · intro s hs
    simp only [Ex.steps, List.mem_cons, List.not_mem_nil, or_false] at hs
    rcases hs with rfl | rfl
    · exact ⟨rfl, 11 / 10, lit "sc", lit "1.1", .scale _, rfl, by
        rw [h1]; exact .kept (lit "1.") '1' (by decide) (by decide) (by decide) (by decide)
          (by decide), rfl⟩
    · exact ⟨rfl, 2, lit "sh", lit "2", .shift _, rfl, by
        rw [h2]; exact .whole (lit "2") (by decide) (by decide) (by decide), rfl⟩
  · simp [Ex.steps]
  · intro s hs
    simp only [Ex.steps, List.mem_cons, List.not_mem_nil, or_false] at hs
    rcases hs with rfl | rfl <;> decide
  · intro c hc
    simp only [List.mem_cons, List.not_mem_nil, or_false] at hc
    rcases hc with rfl | rfl <;> exact ⟨by decide, by decide⟩

/-- **C61 fails for two dimensions with parameters of the same kind**: the value of the first
is overwritten in the file name, so its file is not the one for that value. -/
theorem c61_dimensions_negation (show' : ℝ → PyStr) (v v' u : ℝ) (w w' x : PyStr)
    (hw : Written (show' v) w) (hw' : Written (show' v') w') (hx : Written (show' u) x) :
    ∃ r, prePath show' (lit "/pre/") (lit "Te130.hdf5")
        [(.scale, Ex.scalePar (lit "energy") v), (.scale, Ex.scalePar (lit "radial") u)] = .ok r ∧
      prePath show' (lit "/pre/") (lit "Te130.hdf5")
        [(.scale, Ex.scalePar (lit "energy") v'), (.scale, Ex.scalePar (lit "radial") u)] = .ok r := by
  have hparts : ∀ c ∈ [lit "Te130"], Part c := by
    intro c hc
    rw [List.mem_singleton] at hc
    rw [hc]
    exact ⟨by decide, by decide⟩
  have key : ∀ (z : ℝ) (y : PyStr), Written (show' z) y →
      prePath show' (lit "/pre/") (lit "Te130.hdf5")
        [(.scale, Ex.scalePar (lit "energy") z), (.scale, Ex.scalePar (lit "radial") u)] =
      .ok (folders [[], lit "pre", lit "energy", lit "scale", lit "radial", lit "scale"],
        fileName [lit "Te130", x ++ lit "sc"]) := by
    intro z y hy
    have h1 := (c61_name show' .scale (Ex.scalePar (lit "energy") z) z (lit "scale") (lit "sc") y
      (.scale z) rfl hy [lit "Te130"] (by simp) hparts (lit "energy") rfl (by decide) (by decide)
      [[], lit "pre"] [] (by decide) (by simp) (by simp)).2
    rw [show retag y (lit "sc") [lit "Te130"] = [lit "Te130", y ++ lit "sc"] from by
      unfold retag; rw [if_neg (by decide)]; rfl] at h1
    have h2 := (c61_name show' .scale (Ex.scalePar (lit "radial") u) u (lit "scale") (lit "sc") x
      (.scale u) rfl hx [lit "Te130", y ++ lit "sc"] (by simp) (by
        intro c hc
        simp only [List.mem_cons, List.not_mem_nil, or_false] at hc
        rcases hc with rfl | rfl
        · exact ⟨by decide, by decide⟩
        · refine ⟨?_, Ending.sc.not_hdf5 y⟩
          rw [List.mem_append]
          rintro (h | h)
          · exact hy.no_sep h
          · exact absurd h (by decide)) (lit "radial") rfl (by decide) (by decide)
      [[], lit "pre", lit "energy", lit "scale"] [] (by decide) (by simp) (by simp)).2
    rw [show retag x (lit "sc") [lit "Te130", y ++ lit "sc"] = [lit "Te130", x ++ lit "sc"] from by
      unfold retag
      rw [if_pos ⟨y ++ lit "sc", by simp, List.suffix_append _ _⟩, List.map_cons, List.map_cons,
        if_neg (by decide), if_pos (List.suffix_append _ _)]
      rfl] at h2
    unfold prePath
    rw [List.foldlM_cons, preStepPar_not_in (dim := lit "energy") rfl (by decide)]
    rw [show lit "/pre/" ++ (lit "energy" ++ ['/']) = folders ([[], lit "pre"] ++ [lit "energy"])
      from by decide, show lit "Te130.hdf5" = fileName [lit "Te130"] from by decide, h1]
    simp only [bind, Except.bind]
    rw [List.foldlM_cons, preStepPar_not_in (dim := lit "radial") rfl (by decide)]
    rw [show folders ([[], lit "pre"] ++ [lit "energy", lit "scale"]) ++ (lit "radial" ++ ['/']) =
      folders ([[], lit "pre", lit "energy", lit "scale"] ++ [lit "radial"])
      from by decide, h2]
    rfl
  exact ⟨_, key v w hw, key v' w' hw'⟩

/-- **C61 fails when the name of the dimension only occurs inside the directory**: then its
folder is not added, and the call raises ValueError. -/
theorem c61_substring_negation (show' : ℝ → PyStr) (v : ℝ) (filename : PyStr) :
    prePath show' (lit "/data/energy_study/") filename
      [(.scale, Ex.scalePar (lit "energy") v)] = .error .valueError ∧
    prePath show' (lit "/pre/radial3/scale/") filename
      [(.shift, Ex.scalePar (lit "radial") v)] = .error .valueError := by
  constructor
  · unfold prePath
    rw [List.foldlM_cons, preStepPar_in (dim := lit "energy") rfl (by decide)]
    rfl
  · unfold prePath
    rw [List.foldlM_cons, preStepPar_in (dim := lit "radial") rfl (by decide)]
    rfl

/-- **C61 needs the slash**: without one at the end of the base directory the folder of the
dimension is glued to its last folder. -/
theorem c61_slash_negation (show' : ℝ → PyStr) (v : ℝ) (w : PyStr) (hw : Written (show' v) w) :
    prePath show' (lit "/pre") (lit "Te130.hdf5") [(.scale, Ex.scalePar (lit "energy") v)] =
      .ok (lit "/preenergy/scale/", fileName [lit "Te130", w ++ lit "sc"]) := by
  unfold prePath
  rw [List.foldlM_cons, preStepPar_not_in (dim := lit "energy") rfl (by decide)]
  rw [show lit "Te130.hdf5" = fileName [lit "Te130"] from by decide,
    getPreConvolved_tagged (.scale v) rfl hw [lit "Te130"] (by simp) (by
      intro c hc
      rw [List.mem_singleton] at hc
      rw [hc]
      exact ⟨by decide, by decide⟩)]
  rw [show retag w (lit "sc") [lit "Te130"] = [lit "Te130", w ++ lit "sc"] from by
      unfold retag; rw [if_neg (by decide)]; rfl]
  rfl

/-- **C61, refusals.** A parameter without a value is refused with ValueError, a rate
parameter has no such name, and so is a file that is not below the folder of the dimension. -/
theorem c61_rejects (show' : ℝ → PyStr) (k : ParKind) (p : FitPar) (directory filename : PyStr)
    (added : Bool) :
    (k ≠ .rate → p.current = none →
      getPreConvolved show' k p directory filename added = .error .valueError) ∧
    getPreConvolved show' .rate p directory filename added = .error .attributeError ∧
    (∀ v dim fs, k ≠ .rate → p.current = some v → p.dimension = some dim → dim ≠ [] → fs ≠ [] →
      (∀ f ∈ fs, '/' ∉ f) → dim ∉ fs →
      getPreConvolved show' k p (folders fs) filename false = .error .valueError) := by
  refine ⟨?_, ?_, ?_⟩
  · intro hk hc
    unfold getPreConvolved
    rw [hc]
    cases k with
    | rate => exact absurd rfl hk
    | resolution | shift | scale => rfl
  · rfl
  · intro v dim fs hk hc hd hdne hne hfs hnot
    have hdir : ∀ folder, preDir folder (some dim) (folders fs) false = .error .valueError := by
      intro folder
      unfold preDir
      rw [folders_getLast hne]
      simp only [ne_eq, not_true_eq_false, if_false, pySplit_folders hfs]
      rw [List.findIdx?_eq_none_iff.2]
      · rfl
      · intro x hx
        rw [List.mem_reverse, List.mem_append, List.mem_singleton] at hx
        simp only [Option.some.injEq, decide_eq_false_iff_not]
        rintro rfl
        rcases hx with hx | hx
        · exact hnot hx
        · exact hdne hx
    unfold getPreConvolved
    rw [hc]
    cases k with
    | rate => exact absurd rfl hk
    | resolution | shift | scale =>
      simp only [preKind, hdir, hd, bind, Except.bind]

example : folders [[], lit "data", lit "energy_study"] = lit "/data/energy_study/" ∧
    lit "energy" ∉ [[], lit "data", lit "energy_study"] := by decide

end Verif
