import Verif.Model.Store
import Verif.Spec.Config

/-! Vocabulary for the properties of saving and loading. -/

namespace Verif

/-- No separator of the string format occurs. -/
def Clean (s : PyStr) : Prop := ',' ∉ s ∧ ':' ∉ s ∧ ';' ∉ s

/-- A value that the string format can hold: a string without separators, an
integer, or a float whose text reads back to the same float. -/
def Plain (ft : FloatText) : PyVal → Prop
  | .str s => Clean s
  | .int _ => True
  | .float x => Clean (ft.show x) ∧ ft.read (ft.show x) = some x
  | .other => False

/-- A fit configuration of rate parameters for the named spectrum, as `load` makes
them. -/
structure RateConfig (name : PyStr) (fc : SpectraFitConfig) : Prop where
  spectrum : fc.spectraName = name
  filled : fc.config.pars ≠ []
  distinct : fc.config.getPars.Nodup
  names : ∀ e ∈ fc.config.pars, e.2.name = e.1 ∧ e.2.dimension = none ∧ Built e.2
  rates : ∀ e ∈ fc.config.pars, lit "rate" <:+: e.1

/-- The axes of a spectrum: at least one, distinct names, data of the same
dimension. -/
structure AxesOk (s : FullSpec) : Prop where
  axes : s.config.pars ≠ []
  distinct : s.config.getPars.Nodup
  names : ∀ e ∈ s.config.pars, e.2.name = e.1
  dimension : s.data.shape.length = s.config.pars.length

/-- A spectrum that can be saved and loaded without loss. -/
structure Storable (s : FullSpec) : Prop where
  axes : AxesOk s
  fit : ∀ fc, s.fitConfig = some fc → RateConfig s.name fc
  style : s.style.isEmpty = false

/-- Two optional fit configurations agree: names, parameters in order, settings,
current values and best fits. -/
def SameFit : Option SpectraFitConfig → Option SpectraFitConfig → Prop
  | none, none => True
  | some c, some c' =>
    c'.spectraName = c.spectraName ∧ c'.config.name = c.config.name ∧
    SameKeys c'.config.pars c.config.pars ∧
    ∀ n p, c.config.getPar n = .ok p → ∃ p', c'.config.getPar n = .ok p' ∧
      SameSettings p p' ∧ p'.current = p.current ∧ p'.bestFit = p.bestFit
  | _, _ => False

/-- The label of the data type in the name of a spectrum. -/
inductive DataLabel : PyStr → Prop
  | mc : DataLabel (lit "mc")
  | mix : DataLabel (lit "mix")
  | reco : DataLabel (lit "reco")

/-- One attribute of a file of the old format: parameter, setting, value. -/
structure OldAttr where
  par : PyStr
  setting : PyStr
  value : ℚ

/-- Its name in the file. -/
def OldAttr.key (a : OldAttr) : PyStr := lit "pars" ++ ':' :: (a.par ++ ':' :: a.setting)

/-- Attributes as old versions wrote them: no colon in a parameter name, known
settings, each at most once. -/
structure OldWritten (as : List OldAttr) : Prop where
  names : ∀ a ∈ as, ':' ∉ a.par
  settings : ∀ a ∈ as, a.setting = lit "low" ∨ a.setting = lit "high" ∨ a.setting = lit "bins"
  distinct : (as.map (fun a => (a.par, a.setting))).Nodup

/-- One setting of an axis as read from old attributes: the value in the file, or the
default. -/
def OldRead (as : List OldAttr) (par setting : PyStr) (default x : ℚ) : Prop :=
  (∀ v, ⟨par, setting, v⟩ ∈ as → x = v) ∧ ((∀ v, ⟨par, setting, v⟩ ∉ as) → x = default)

/-- Global parameters first, put together by dimension, then the spectral ones: the order
in which a file is read. -/
def FileOrder (g : GlobalFitConfig) : Prop :=
  ∃ glob spec, g.pars = glob ++ spec ∧ (∀ e ∈ glob, e.2.isGlobal = true) ∧
    (∀ e ∈ spec, e.2.isGlobal = false) ∧ Contiguous dimOf glob

/-- The same parameter under the same name: class, type, settings and current value. -/
def SamePar (e e' : PyStr × GEntry) : Prop :=
  e'.1 = e.1 ∧ e'.2.kind = e.2.kind ∧ e'.2.isGlobal = e.2.isGlobal ∧
    SameSettings e.2.par e'.2.par ∧ e'.2.par.current = e.2.par.current

/-- The same parameters in the same order. -/
def SamePars (g g' : GlobalFitConfig) : Prop := List.Forall₂ SamePar g.pars g'.pars

/-- The same best fits in the same order. -/
def SameBest (g g' : GlobalFitConfig) : Prop :=
  g'.pars.map (fun e => e.2.par.bestFit) = g.pars.map (fun e => e.2.par.bestFit)

/-- A spectral configuration with at least one axis and distinct names. -/
structure ConfigOk (c : SpectraConfig) : Prop where
  axes : c.pars ≠ []
  distinct : c.getPars.Nodup
  names : ∀ e ∈ c.pars, e.2.name = e.1

/-- The arrays of a grid search have the shapes given by the configurations. -/
structure Consistent (r : FullSearch) : Prop where
  penalties : r.penaltyTerms.shape = r.fitConfig.shape
  stats : r.stats.shape.map (fun n : ℕ => (n : ℤ)) =
    r.fitConfig.shape.map (fun n : ℕ => (n : ℤ)) ++ if r.perBin then r.spectraConfig.shape else []

/-- The tables of limit results have one row per scaling and one column per fit
parameter; `n` is the number of scalings. -/
structure LimitOk (r : FullLimit) (n : ℕ) : Prop where
  rate : ∃ p, r.limitConfig.config.getPar (lit "rate") = .ok p ∧ p.bins = n
  penalties : r.penaltyTerms.shape = [n, r.fitConfig.pars.length]
  bestFits : r.bestFits.shape = [n, r.fitConfig.pars.length]
  stats : ∃ s, r.stats.shape = n :: s
  fits : r.fitResults.length = n

/-- One fit result of limit results before saving and after loading. -/
def SameResult (r : FullLimit) (i : ℕ) : Option FullSearch → Option FullSearch → Prop
  | none, none => True
  | some s, some s' =>
    s'.stats = s.stats ∧ s'.penaltyTerms = s.penaltyTerms ∧ s'.resets = s.resets ∧
    s'.spectraConfig = r.spectraConfig ∧ SamePars r.fitConfig s'.fitConfig ∧
    ∀ j e, s'.fitConfig.pars[j]? = some e → e.2.par.bestFit = some (r.bestFits.get [i, j])
  | _, _ => False

end Verif
