import Verif.Model.Config

/-! Vocabulary for the properties of configurations. -/

namespace Verif

/-- The names of a history of additions, each at its first occurrence. -/
def firstSeen : List PyStr → List PyStr
  | [] => []
  | n :: ns => n :: (firstSeen ns).filter (fun m => m ≠ n)

/-- The entries of a list put together by a label, labels in the order in which
they are first seen, entries of one label in their order. -/
def groupBy {α : Type} (label : α → PyStr) (l : List α) : List α :=
  (firstSeen (l.map label)).flatMap (fun d => l.filter (fun a => label a = d))

/-- Two dictionaries list the same keys in the same order. -/
def SameKeys {α β : Type} (c : Dict α) (d : Dict β) : Prop := c.map Prod.fst = d.map Prod.fst

/-- The settings of a fit parameter: everything the user gives. -/
structure SameSettings (p q : FitPar) : Prop where
  name : p.name = q.name
  prior : p.prior = q.prior
  sigma : p.sigma = q.sigma
  low : p.low = q.low
  high : p.high = q.high
  bins : p.bins = q.bins
  dimension : p.dimension = q.dimension
  logscale : p.logscale = q.logscale
  base : p.base = q.base
  logDev : p.logDev = q.logDev

/-- The flags are as the constructor leaves them: a base exactly with a
logarithmic scale, never both scales. -/
def Built (p : FitPar) : Prop :=
  (p.logscale = none ∧ p.base = none ∧ (p.logDev = none ∨ p.logDev = some true)) ∨
  (p.logscale = some true ∧ (∃ b, p.base = some b) ∧ p.logDev = none)

/-- The systematics a global configuration file may name, with their classes. -/
inductive Systematic : PyStr → ParKind → Prop
  | resolution : Systematic (lit "resolution") .resolution
  | resolutionLy : Systematic (lit "resolution_ly") .resolution
  | shift : Systematic (lit "shift") .shift
  | scale : Systematic (lit "scale") .scale

/-- A global parameter as `load` makes it: called `dimension_systematic`, of the
class that belongs to the systematic. -/
def GlobalNamed (e : PyStr × GEntry) : Prop :=
  e.2.par.name = e.1 ∧ ∃ dim syst, e.2.par.dimension = some dim ∧
    e.1 = dim ++ '_' :: syst ∧ Systematic syst e.2.kind

/-- The one ambiguous case of names: removing `dim_` from `dim_resolution_ly` also
cuts into `resolution_ly`. -/
def Ambiguous (e : PyStr × GEntry) : Prop :=
  ∃ dim, e.2.par.dimension = some dim ∧ e.1 = dim ++ lit "_resolution_ly" ∧
    dim <:+ lit "resolution"

/-- A spectral parameter as `load` makes it: a rate without a dimension. -/
def RateNamed (e : PyStr × GEntry) : Prop :=
  e.2.par.name = e.1 ∧ e.2.par.dimension = none ∧ lit "rate" <:+: e.1 ∧ e.2.kind = .rate

/-- A global fit configuration whose entries have the form a file can have. -/
structure Loadable (g : GlobalFitConfig) : Prop where
  distinct : (g.pars.map Prod.fst).Nodup
  globals : ∀ e ∈ g.pars, e.2.isGlobal = true → GlobalNamed e ∧ ¬ Ambiguous e
  spectral : ∀ e ∈ g.pars, e.2.isGlobal = false → RateNamed e
  built : ∀ e ∈ g.pars, Built e.2.par

/-- The name under which a parameter of a spectrum is added. -/
def joined (spectrum par : PyStr) : PyStr := spectrum ++ '_' :: par

/-- All parameters of a list of spectral fit configurations: name under which
they are added, and the parameter. -/
def allJoined (cs : List SpectraFitConfig) : List (PyStr × FitPar) :=
  cs.flatMap (fun c => c.config.pars.map (fun e => (joined c.spectraName e.1, e.2)))

/-- The dimension of a global parameter. -/
def dimOf (e : PyStr × GEntry) : PyStr := e.2.par.dimension.getD []

/-- No two entries with one label have an entry with another label between them. -/
def Contiguous {α : Type} (label : α → PyStr) (l : List α) : Prop :=
  ∀ l1 a l2 b l3, l = l1 ++ a :: (l2 ++ b :: l3) → label a = label b →
    ∀ c ∈ l2, label c = label a

end Verif
