import Verif.Spec.Traffic

/-!
# Specification vocabulary: vehicles following each other on a lane
-/

noncomputable section
namespace HighwayEnv.Spec
open HighwayEnv

/-- The distance (between centres, in metres) that a vehicle of speed `v` should keep behind one of speed `w` which does not reverse: one vehicle length plus the difference between
the distances both need to stop when they brake at 6 m/s² in steps of `dt`, counting one additional step for the vehicle behind. -/
def safeDistance (dt v w : ℝ) : ℝ := 5 + max 0 (max v 0 ^ 2 / 12 + max v 0 * dt - (w ^ 2 / 12 + w * dt / 2))

/-- How far along the lane a vehicle is. -/
def station (l : Lane) (v : Vehicle) : ℝ := (l.localCoordinates v.pos).1

/-- The road consists of the single straight lane `l`, of index `i`; it has no regulation and no objects. -/
structure SingleLane (r : Road) (i : LaneIndex) (l : Lane) : Prop where
  network : r.network = [(i.src, [(i.dst, [l])])]
  id : i.id = 0
  oneWay : i.src ≠ i.dst
  straight : ∃ p q, p ≠ q ∧ l.shape = .straight p q
  width : 0 < l.width
  regulated : r.regulated = false
  objects : r.objects = []

/-- The vehicle is on the centre line of the lane, aligned with it. -/
structure OnMiddle (i : LaneIndex) (l : Lane) (v : Vehicle) : Prop where
  lateral : (l.localCoordinates v.pos).2 = 0
  heading : v.heading = l.headingAt 0
  laneIndex : v.laneIndex = i
  lane : v.lane = l

/-- A traffic vehicle (non-linear class) driving on the lane at most at its target speed, itself at most 30 m/s. -/
structure DrivesOn (dt : ℝ) (i : LaneIndex) (l : Lane) (v : Vehicle) : Prop extends OnMiddle i l v where
  kind : v.kind = .idm
  targetLane : v.targetLane = i
  notSpeeding : v.speed ≤ v.targetSpeed
  limit : v.targetSpeed ≤ 30
  positive : 1 / 100 < v.targetSpeed
  notTiny : 12 * dt ≤ v.targetSpeed

/-- From one frame to the next the vehicle drove along the lane at its speed, and braked at most at 6 m/s². -/
structure Advances (dt : ℝ) (i : LaneIndex) (l : Lane) (v v' : Vehicle) : Prop where
  on : OnMiddle i l v'
  advance : station l v' = station l v + v.speed * dt
  brake : v.speed - 6 * dt ≤ v'.speed

/-- A vehicle that others follow: it does not reverse, and is not beyond the range in which followers see it (5 m around the lane). -/
def Visible (l : Lane) (v : Vehicle) : Prop := 0 ≤ v.speed ∧ -5 ≤ station l v ∧ station l v < l.length + 5

/-- Every vehicle of the list but the first keeps the safe distance behind the previous one. -/
def SafeGaps (dt : ℝ) (l : Lane) (vs : List Vehicle) : Prop :=
  ∀ (k : ℕ) (w v : Vehicle), vs[k]? = some w → vs[k + 1]? = some v → safeDistance dt v.speed w.speed < station l w - station l v

end HighwayEnv.Spec
