import Verif.Spec.Platoon

/-!
# Specification vocabulary: traffic on several parallel lanes
-/

noncomputable section
namespace HighwayEnv.Spec
open HighwayEnv

/-- The lanes (given by their indices) that vehicles use on a network: straight, parallel to the x axis, 4 m wide, their centre lines at least 4 m apart; somebody on the centre line of one
of them, heading along it, is attributed to this lane. -/
structure ParallelLanes (g : Graph) (used : Set LaneIndex) : Prop where
  level : ∀ i ∈ used, ∃ l x0 x1 y, g.getLane i = .ok l ∧ l.shape = .straight ⟨x0, y⟩ ⟨x1, y⟩ ∧ x0 ≠ x1 ∧ l.width = 4
  own : ∀ i ∈ used, ∀ l p, g.getLane i = .ok l → (l.localCoordinates p).2 = 0 → g.getClosestLaneIndex p (some (l.headingAt 0)) = .ok i
  apart : ∀ i ∈ used, ∀ j ∈ used, i ≠ j → ∀ l m p, g.getLane i = .ok l → g.getLane j = .ok m → (l.localCoordinates p).2 = 0 →
    4 ≤ |(m.localCoordinates p).2|

/-- The vehicle drives on the centre line of one of the lanes, aligned with it. -/
def OnLanes (g : Graph) (used : Set LaneIndex) (v : Vehicle) : Prop :=
  v.laneIndex ∈ used ∧ g.getLane v.laneIndex = .ok v.lane ∧ OnMiddle v.laneIndex v.lane v

/-- Vehicle `v` is on the same lane as `w`, behind it (or level with it). -/
def BehindOf (v w : Vehicle) : Prop := v.laneIndex = w.laneIndex ∧ station v.lane v ≤ station v.lane w

/-- Every vehicle keeps the safe distance behind every vehicle ahead on the same lane. -/
def KeepDistances (dt : ℝ) (vs : List Vehicle) : Prop :=
  ∀ (j k : ℕ) (v w : Vehicle), j ≠ k → vs[j]? = some v → vs[k]? = some w → BehindOf v w →
    safeDistance dt v.speed w.speed < station v.lane w - station v.lane v

/-- How far along the lane an object is. -/
def stationOf (l : Lane) (o : RoadObject) : ℝ := (l.localCoordinates o.pos).1

/-- The obstacle stands in the middle of the lane. -/
def StandsOn (l : Lane) (o : RoadObject) : Prop := o.kind = .obstacle ∧ (l.localCoordinates o.pos).2 = 0

/-- The obstacles do not move; on each of the lanes an obstacle either stands in the middle, where the vehicles of the lane look (up to 5 m around the lane), or is at least 4 m to the side.
(Landmarks may be anywhere.) -/
def ObstaclesPlaced (g : Graph) (used : Set LaneIndex) (os : List RoadObject) : Prop :=
  ∀ o ∈ os, o.kind = .obstacle → o.speed = 0 ∧ ∀ i ∈ used, ∀ l, g.getLane i = .ok l →
    ((l.localCoordinates o.pos).2 = 0 ∧ -5 ≤ stationOf l o ∧ stationOf l o < l.length + 5) ∨ 4 ≤ |(l.localCoordinates o.pos).2|

/-- Every vehicle keeps the safe distance (to something that stands still) before every obstacle ahead on its lane, and is more than 5 m beyond those behind it. -/
def KeepOffObstacles (dt : ℝ) (vs : List Vehicle) (os : List RoadObject) : Prop :=
  ∀ v ∈ vs, ∀ o ∈ os, StandsOn v.lane o →
    (station v.lane v ≤ stationOf v.lane o → safeDistance dt v.speed 0 < stationOf v.lane o - station v.lane v) ∧
    (stationOf v.lane o < station v.lane v → 5 < station v.lane v - stationOf v.lane o)

/-- The objects are the same, and the obstacles among them are exactly as they were (not even marked as hit). -/
def ObstaclesUntouched (os os' : List RoadObject) : Prop :=
  os'.length = os.length ∧ ∀ (k : ℕ) (o o' : RoadObject), os[k]? = some o → os'[k]? = some o' → o.kind = .obstacle → o' = o

/-- Somebody, or an obstacle, is behind the vehicle at position `k` of the list, on the same lane. -/
def HasFollower (vs : List Vehicle) (os : List RoadObject) (k : ℕ) : Prop :=
  (∃ (j : ℕ) (v w : Vehicle), j ≠ k ∧ vs[j]? = some v ∧ vs[k]? = some w ∧ BehindOf v w) ∨
  ∃ w, vs[k]? = some w ∧ ∃ o ∈ os, StandsOn w.lane o ∧ stationOf w.lane o < station w.lane w

/-- A traffic vehicle (non-linear class) that drives on its lane at most at its target speed (itself at most 30 m/s), and does not change lanes. -/
def StaysInLane (dt : ℝ) (v : Vehicle) : Prop := DrivesOn dt v.laneIndex v.lane v ∧ v.enableLaneChange = false

/-- The vehicle is before the point (2.5 m before the end of its lane) where traffic turns to the next lane. -/
def BeforeEnd (v : Vehicle) : Prop := station v.lane v ≤ v.lane.length - 5 / 2

/-- The vehicle does not reverse, and is not before the start of its lane by more than 5 m (where the vehicles behind would not look). -/
def Leads (v : Vehicle) : Prop := 0 ≤ v.speed ∧ -5 ≤ station v.lane v

/-- An obstacle stands on the lane of the vehicle, ahead of it (and not further than the 2.5 m after the end of the lane), and none behind it. -/
def StopsBefore (os : List RoadObject) (v : Vehicle) : Prop :=
  (∃ o ∈ os, StandsOn v.lane o ∧ station v.lane v ≤ stationOf v.lane o ∧ stationOf v.lane o ≤ v.lane.length + 5 / 2) ∧
  ∀ o ∈ os, StandsOn v.lane o → station v.lane v ≤ stationOf v.lane o

/-- `n` frames of `dt` seconds on a road without regulation.  The vehicles at the positions in `agents` of `road.vehicles` may receive any commands, but drive along the lane they
are on, brake at most at 6 m/s², and keep the safe distance behind whoever is ahead of them, and before obstacles.  Nobody comes to the end of the road, and vehicles that have a follower (or an
obstacle behind) do not reverse and are not before the start of their lanes. -/
structure LaneTraffic (G : Globals) (dt : ℝ) (agents : Set ℕ) (s : ℕ → Road) (cmds : ℕ → List (ℕ × VAction)) (n : ℕ) : Prop where
  run : ∀ t < n, frame G dt (s t) (cmds t) = .ok (s (t + 1))
  commanded : ∀ t < n, ∀ c ∈ cmds t, c.1 ∈ agents
  unregulated : (s 0).regulated = false
  ids : ((s 0).vehicles.map Vehicle.uid ++ (s 0).objects.map RoadObject.uid).Nodup
  beforeEnd : ∀ t ≤ n, ∀ v ∈ (s t).vehicles, BeforeEnd v
  forwards : ∀ t ≤ n, ∀ (k : ℕ) (v : Vehicle), HasFollower (s t).vehicles (s t).objects k → (s t).vehicles[k]? = some v → Leads v
  agentsAdvance : ∀ t < n, ∀ k ∈ agents, ∀ v v', (s t).vehicles[k]? = some v → (s (t + 1)).vehicles[k]? = some v' → Advances dt v.laneIndex v.lane v v'
  agentsKeep : ∀ t < n, ∀ k ∈ agents, ∀ (j : ℕ) (v w v' w' : Vehicle), j ≠ k → (s t).vehicles[k]? = some v → (s t).vehicles[j]? = some w → BehindOf v w →
    (s (t + 1)).vehicles[k]? = some v' → (s (t + 1)).vehicles[j]? = some w' → safeDistance dt v'.speed w'.speed < station v.lane w' - station v.lane v'
  agentsKeepOff : ∀ t < n, ∀ k ∈ agents, ∀ (v v' : Vehicle) (o : RoadObject), (s t).vehicles[k]? = some v → (s (t + 1)).vehicles[k]? = some v' →
    o ∈ (s t).objects → StandsOn v.lane o → station v.lane v ≤ stationOf v.lane o → safeDistance dt v'.speed 0 < stationOf v.lane o - station v.lane v'

end HighwayEnv.Spec
