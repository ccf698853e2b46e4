import Verif.Spec.Full
import Verif.Spec.Occupancy

/-!
# Specification vocabulary: observation configurations with which an environment keeps the gym contract
-/

noncomputable section
open Classical
namespace HighwayEnv.Spec
open HighwayEnv

/-- One observation configuration, for one agent: normalised kinematics, or an occupancy grid with positive steps, intervals that are not reversed,
existing features and ranges of positive width, relative to the vehicle. -/
inductive GoodFlat (G : Globals) (q : ObsParams) : Prop where
  | kinematics (h : q.type = some "Kinematics") (hn : Normalised (Factory.kinematics q))
  | occupancy (h : q.type = some "OccupancyGrid") (step : ℝ × ℝ) (hs : q.gridStep = some step) (hx : 0 < step.1) (hy : 0 < step.2)
      (hgrid : (q.gridSize.getD ((-27.5, 27.5), (-27.5, 27.5))).1.1 ≤ (q.gridSize.getD ((-27.5, 27.5), (-27.5, 27.5))).1.2 ∧
        (q.gridSize.getD ((-27.5, 27.5), (-27.5, 27.5))).2.1 ≤ (q.gridSize.getD ((-27.5, 27.5), (-27.5, 27.5))).2.2)
      (hf : ∀ f ∈ q.features.getD ["presence", "vx", "vy"], f ∈ featureNames)
      (hr : ∀ rs, q.featuresRange = some rs → (rs.map Prod.fst).Nodup ∧ ∀ fr ∈ rs, fr.2.1 ≠ fr.2.2)
      (ha : q.absolute.getD false = false) (hG : 0 < G.speedMax)

/-- An observation configuration: for one agent, or the same for each of several agents. -/
inductive GoodObs (G : Globals) : ObsDict → Prop where
  | one (q : ObsParams) (h : GoodFlat G q) : GoodObs G (.flat q)
  | several (p q : ObsParams) (hp : p.type = some "MultiAgentObservation") (h : GoodFlat G q) : GoodObs G (.nested p (.flat q))

/-- The contract of `step`, for ever: any sequence of playable actions can be played; every observation is in the observation space and every result
is the judgement of the environment on a state satisfying `J`. -/
def Playing (G : Globals) (c : SimConfig) (cls : EnvClass) (view : View) (J : Env → Prop) (sp : Factory.Spaces) (f : Full) : Prop :=
  ∀ as, (∀ a ∈ as, Playable sp.actionSpace a) → ∃ rs f', Play G c cls view f as rs f' ∧ rs.length = as.length ∧
    (∀ r ∈ rs, Member sp.observationSpace r.1 ∧ Judged c cls J as r.2) ∧ Ready c f'.env ∧ J f'.env

/-- The same for the actions that can be played within `N` frames from the start. -/
def PlayingUntil (N : ℕ) (G : Globals) (c : SimConfig) (cls : EnvClass) (view : View) (J : Env → Prop) (sp : Factory.Spaces) (f : Full) : Prop :=
  ∀ as, (∀ a ∈ as, Playable sp.actionSpace a) → period c * as.length ≤ N → ∃ rs f', Play G c cls view f as rs f' ∧ rs.length = as.length ∧
    (∀ r ∈ rs, Member sp.observationSpace r.1 ∧ Judged c cls J as r.2) ∧ Ready c f'.env ∧ J f'.env

end HighwayEnv.Spec
