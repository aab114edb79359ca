import Verif.Model.Base
import Mathlib.Analysis.SpecialFunctions.Sqrt

/-!
# Extractors

Model of `/repo/echidna/core/dsextract.py`. Floats are reals. What `rat`/`ROOT`
do is not modelled: the events are records of the numbers the code reads.
-/

namespace Verif

/-- A position in mm. -/
structure Pos where
  /-- x -/
  x : ℝ
  /-- y -/
  y : ℝ
  /-- z -/
  z : ℝ

/-- `numpy.fabs(numpy.sqrt(x**2 + y**2 + z**2))`, for instance
`/repo/echidna/core/dsextract.py:120-122`; also ROOT's `TVector3::Mag()`. -/
noncomputable def Pos.mag (p : Pos) : ℝ := |Real.sqrt (p.x ^ 2 + p.y ^ 2 + p.z ^ 2)|

/-- The columns of an ntuple entry that the extractors read. -/
structure NtEntry where
  /-- `mc` -/
  mc : ℤ
  /-- `scintFit` -/
  scintFit : ℤ
  /-- `mcPosx`, `mcPosy`, `mcPosz` -/
  mcPos : Pos
  /-- `posx`, `posy`, `posz` -/
  pos : Pos
  /-- `mcEdepQuenched` -/
  mcEdepQuenched : ℝ
  /-- `mcEdep` -/
  mcEdep : ℝ
  /-- `energy` -/
  energy : ℝ

/-- What the extractors read of a triggered event (`RAT.DS.EV`). -/
structure RootEV where
  /-- `DefaultFitVertexExists()` -/
  fitExists : Bool
  /-- `ContainsEnergy()` -/
  containsEnergy : Bool
  /-- `ValidEnergy()` -/
  validEnergy : Bool
  /-- `ContainsPosition()` -/
  containsPosition : Bool
  /-- `ValidPosition()` -/
  validPosition : Bool
  /-- `GetPosition()`; simplification: rat's exception for a vertex without
  position is not modelled. -/
  pos : Pos
  /-- `GetEnergy()` -/
  energy : ℝ

/-- What the extractors read of an entry of a root file (`RAT.DS` with its
`RAT.DS.MC`). -/
structure RootDS where
  /-- positions of the simulated particles (`GetMCParticle(i).GetPosition()`) -/
  particles : List Pos
  /-- `GetScintQuenchedEnergyDeposit()` -/
  quenched : ℝ
  /-- `GetScintEnergyDeposit()` -/
  edep : ℝ
  /-- the triggered events -/
  evs : List RootEV

/-- The nine extractor classes. -/
inductive ExKind
  | energyMC | energyReco | energyTruth | radialMC | radialReco | radial3MC | radial3Reco
  | zradial3MC | zradial3Reco
  deriving DecidableEq

/-- An extractor: `/repo/echidna/core/dsextract.py:56-79`. `otherPos` is
`_reco_pos` of the mc and truth classes and `_mc_pos` of the reco classes. -/
structure Extractor where
  /-- its class -/
  kind : ExKind
  /-- `_name` -/
  name : PyStr
  /-- `_fv_radius` -/
  fvRadius : Option ℝ
  /-- `_external` -/
  external : Bool
  /-- `_reco_pos` or `_mc_pos` -/
  otherPos : Bool
  /-- `_outer_radius` (only used by the radial3 classes) -/
  outer : ℝ

namespace Extractor

/-- `_av_radius`, `/repo/echidna/calc/constants.py:7`. -/
def avRadius : ℝ := 5997

open Classical in
/-- `outer_radius` of the radial3 constructors,
`/repo/echidna/core/dsextract.py:807-810`: `None` and `0` give the default. -/
noncomputable def outerOf : Option ℝ → ℝ
  | none => avRadius
  | some r => if r = 0 then avRadius else r

/-- The constructors, `/repo/echidna/core/dsextract.py:102-108` (energy mc), `246-254`
(energy reco), `375-382` (energy truth), `520-526` (radial mc), `660-668` (radial reco),
`801-813` (radial3 mc), `955-968` (radial3 reco). Those of the zradial3 classes
(`1095-1103`, `1251-1259`) call the base constructor without its argument
`external`, a `TypeError` (an `external` argument is a `TypeError` too). -/
noncomputable def new (kind : ExKind) (fv : Option ℝ) (external otherPos : Bool)
    (outer : Option ℝ) : Except PyErr Extractor :=
  match kind with
  | .energyMC => .ok ⟨kind, lit "energy_mc", fv, external, external || otherPos, avRadius⟩
  | .energyTruth => .ok ⟨kind, lit "energy_truth", fv, external, external || otherPos, avRadius⟩
  | .energyReco =>
    if external && otherPos then .error .valueError
    else .ok ⟨kind, lit "energy_reco", fv, external, otherPos, avRadius⟩
  | .radialMC =>
    if external then .error .valueError
    else .ok ⟨kind, lit "radial_mc", fv, external, otherPos, avRadius⟩
  | .radialReco =>
    if external && otherPos then .error .valueError
    else .ok ⟨kind, lit "radial_reco", fv, external, otherPos, avRadius⟩
  | .radial3MC =>
    if external then .error .valueError
    else .ok ⟨kind, lit "radial3_mc", fv, external, otherPos, outerOf outer⟩
  | .radial3Reco =>
    if external && otherPos then .error .valueError
    else .ok ⟨kind, lit "radial3_reco", fv, external, otherPos, outerOf outer⟩
  | .zradial3MC => .error .typeError
  | .zradial3Reco => .error .typeError

/-- `function_factory`, `/repo/echidna/core/dsextract.py:6-53`. The keywords
`reco_pos` and `mc_pos` are not passed on. Simplification: a keyword that is
absent is given its default. -/
noncomputable def factory (dimension : PyStr) (fv : Option ℝ) (external : Bool)
    (outer : Option ℝ) : Except PyErr Extractor :=
  if dimension = lit "energy_mc" then new .energyMC fv external false none
  else if dimension = lit "energy_reco" then new .energyReco fv external false none
  else if dimension = lit "energy_truth" then new .energyTruth fv external false none
  else if dimension = lit "radial_mc" then new .radialMC fv external false none
  else if dimension = lit "radial_reco" then new .radialReco fv external false none
  else if dimension = lit "radial3_mc" then new .radial3MC fv external false outer
  else if dimension = lit "radial3_reco" then new .radial3Reco fv external false outer
  else if dimension = lit "zradial3_mc" then new .zradial3MC fv external false outer
  else if dimension = lit "zradial3_reco" then new .zradial3Reco fv external false outer
  else .error .indexError

open Classical in
/-- `fv_cut_ntuple` of the mc and truth classes,
`/repo/echidna/core/dsextract.py:110-131`, `384-405`, `528-549`, `815-836`. -/
noncomputable def fvCutNtupleMC (e : Extractor) (r : ℝ) (n : NtEntry) : Bool :=
  if !e.otherPos then decide (n.mcPos.mag < r)
  else if n.scintFit = 1 then decide (n.pos.mag < r) else false

open Classical in
/-- `fv_cut_ntuple` of the reco classes,
`/repo/echidna/core/dsextract.py:256-275`, `670-689`, `970-989`. -/
noncomputable def fvCutNtupleReco (e : Extractor) (r : ℝ) (n : NtEntry) : Bool :=
  if !e.otherPos then decide (n.pos.mag < r) else decide (n.mcPos.mag < r)

open Classical in
/-- `if self._fv_radius: return cut; return True`: `None` and `0` mean no cut. -/
noncomputable def withCut {α : Type} (fv : Option ℝ) (cut : ℝ → α) (yes : α) : α :=
  match fv with
  | none => yes
  | some r => if r = 0 then yes else cut r

open Classical in
/-- `get_valid_ntuple`, `/repo/echidna/core/dsextract.py:192-209` (energy mc), `330-343`
(energy reco), `466-483` (energy truth), `607-621` (radial mc), `744-757` (radial reco),
`895-909` (radial3 mc), `1045-1058` (radial3 reco). The zradial3 classes have no
instances. -/
noncomputable def validNtuple (e : Extractor) (n : NtEntry) : Bool :=
  match e.kind with
  | .energyMC | .energyTruth =>
    if e.external && decide (n.scintFit ≠ 1) then false
    else if n.mc = 1 then withCut e.fvRadius (fun r => e.fvCutNtupleMC r n) true
    else false
  | .radialMC | .radial3MC =>
    if n.mc = 1 then withCut e.fvRadius (fun r => e.fvCutNtupleMC r n) true else false
  | .energyReco =>
    if n.scintFit = 1 ∧ 0 < n.energy then
      withCut e.fvRadius (fun r => e.fvCutNtupleReco r n) true
    else false
  | .radialReco | .radial3Reco =>
    if n.scintFit = 1 then withCut e.fvRadius (fun r => e.fvCutNtupleReco r n) true
    else false
  | .zradial3MC | .zradial3Reco => false

/-- `get_value_ntuple`, `/repo/echidna/core/dsextract.py:211-220`, `345-354`,
`485-494`, `623-634`, `759-770`, `911-923`, `1060-1072`. -/
noncomputable def valueNtuple (e : Extractor) (n : NtEntry) : ℝ :=
  match e.kind with
  | .energyMC => n.mcEdepQuenched
  | .energyTruth => n.mcEdep
  | .energyReco => n.energy
  | .radialMC => n.mcPos.mag
  | .radialReco => n.pos.mag
  | .radial3MC => (n.mcPos.mag / e.outer) ^ 3
  | .radial3Reco => (n.pos.mag / e.outer) ^ 3
  | .zradial3MC | .zradial3Reco => 0

open Classical in
/-- `mc.GetMCParticle(0).GetPosition().Mag() < self._fv_radius`; simplification:
whatever `rat` does for a missing particle is an `IndexError`. -/
noncomputable def mcInside (ds : RootDS) (r : ℝ) : Except PyErr Bool :=
  match ds.particles with
  | [] => .error .indexError
  | p :: _ => .ok (decide (p.mag < r))

open Classical in
/-- `fv_cut_root` of the mc and truth classes,
`/repo/echidna/core/dsextract.py:133-160`, `407-434`, `551-578`, `838-865`. The test `ds.GetEVCount == 0` compares a
method with a number and is always false. -/
noncomputable def fvCutRootMC (e : Extractor) (r : ℝ) (ds : RootDS) : Except PyErr Bool :=
  if !e.otherPos then mcInside ds r
  else
    match ds.evs with
    | [ev] => .ok (decide (ev.pos.mag < r))
    | _ => .error .valueError

open Classical in
/-- `fv_cut_root` of the reco classes, `/repo/echidna/core/dsextract.py:277-299`,
`691-713`, `991-1013`. -/
noncomputable def fvCutRootReco (e : Extractor) (r : ℝ) (ev : RootEV) (ds : RootDS) :
    Except PyErr Bool :=
  if !e.otherPos then .ok (decide (ev.pos.mag < r)) else mcInside ds r

/-- `get_valid_root` of the mc and truth classes,
`/repo/echidna/core/dsextract.py:162-179`, `436-453`, `580-594`, `867-881`. The tests
`ds.GetEVCount == 0` and `mc.GetMCParticleCount > 0` compare methods with numbers:
the first is always false, the second always true (python 2 orders numbers
before everything else). -/
noncomputable def validRootMC (e : Extractor) (ds : RootDS) : Except PyErr Bool :=
  withCut e.fvRadius (fun r => e.fvCutRootMC r ds) (.ok true)

/-- `get_valid_root` of the reco classes, `/repo/echidna/core/dsextract.py:301-317`
(energy), `715-731` (radial), `1015-1031` (radial3, which looks at the energy). -/
noncomputable def validRootReco (e : Extractor) (ev : RootEV) (ds : RootDS) :
    Except PyErr Bool :=
  if ev.fitExists &&
      (if e.kind = .radialReco then ev.containsPosition && ev.validPosition
       else ev.containsEnergy && ev.validEnergy) then
    withCut e.fvRadius (fun r => e.fvCutRootReco r ev ds) (.ok true)
  else .ok false

/-- `get_value_root` of the mc and truth classes,
`/repo/echidna/core/dsextract.py:181-190`, `455-464`, `596-605`, `883-893`. -/
noncomputable def valueRootMC (e : Extractor) (ds : RootDS) : Except PyErr ℝ :=
  match e.kind with
  | .energyMC => .ok ds.quenched
  | .energyTruth => .ok ds.edep
  | k =>
    match ds.particles with
    | [] => .error .indexError
    | p :: _ => .ok (if k = .radialMC then p.mag else (p.mag / e.outer) ^ 3)

/-- `get_value_root` of the reco classes, `/repo/echidna/core/dsextract.py:319-328`,
`733-742`, `1033-1043`. -/
noncomputable def valueRootReco (e : Extractor) (ev : RootEV) : ℝ :=
  match e.kind with
  | .energyReco => ev.energy
  | .radialReco => ev.pos.mag
  | _ => (ev.pos.mag / e.outer) ^ 3

end Extractor

end Verif
