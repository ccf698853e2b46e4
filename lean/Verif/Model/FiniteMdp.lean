import Verif.Model.Observation

/-!
# Model of `highway_env/envs/common/finite_mdp.py` and of `TimeToCollisionObservation` (observation.py:85-118)

A three-dimensional `np.ndarray` is its shape and the function giving its entries.
-/

noncomputable section
open Classical

namespace HighwayEnv

/-- An array of shape `(s, l, t)`; entries outside the shape are meaningless. -/
structure Grid3 where
  s : ℕ
  l : ℕ
  t : ℕ
  at' : ℕ → ℕ → ℕ → ℝ

namespace Grid3

/-- `np.zeros((s, l, t))`. -/
def zeros (s l t : ℕ) : Grid3 := ⟨s, l, t, fun _ _ _ => 0⟩

/-- Numpy index normalisation on an axis of length `n`: negative indices count from the end; `IndexError` outside. -/
def axisIndex (n : ℕ) (i : Int) : Py ℕ :=
  let j := if i < 0 then i + n else i
  if 0 ≤ j ∧ j < n then .ok j.toNat else .error .indexError

/-- `grid[h, lanes, k] = np.maximum(grid[h, lanes, k], c)` — finite_mdp.py:120. -/
def raise (g : Grid3) (h : ℕ) (lanes : List Int) (k : ℕ) (c : ℝ) : Py Grid3 := do
  let is ← lanes.mapM (axisIndex g.l)
  if g.s ≤ h ∨ g.t ≤ k then .error .indexError
  else return { g with at' := fun h' i k' => if h' = h ∧ i ∈ is ∧ k' = k then max (g.at' h' i k') c else g.at' h' i k' }

/-- The start and the stop of the Python slice `a:b` on an axis of length `n`. -/
def sliceBounds (n : ℕ) (a b : Int) : ℕ × ℕ :=
  let cut := fun i : Int => if i < 0 then (i + n).toNat else min i.toNat n
  (cut a, cut b)

/-- `g[a:b, :, :]`. -/
def sliceSpeeds (g : Grid3) (a b : Int) : Grid3 :=
  let p := sliceBounds g.s a b
  { g with s := p.2 - p.1, at' := fun h => g.at' (p.1 + h) }

/-- `g[:, a:b, :]`. -/
def sliceLanes (g : Grid3) (a b : Int) : Grid3 :=
  let p := sliceBounds g.l a b
  { g with l := p.2 - p.1, at' := fun h i => g.at' h (p.1 + i) }

/-- `np.concatenate([ones, g, ones], axis=1)` with `ones` of the shape of `g` — observation.py:105-106. -/
def padLanes (g : Grid3) : Grid3 :=
  { g with l := g.l + g.l + g.l, at' := fun h i k => if g.l ≤ i ∧ i < g.l + g.l then g.at' h (i - g.l) k else 1 }

/-- The array `repeats` — observation.py:111-112: one, plus the number of rows for the first and the last row.  (The in-place addition
through an index array adds once even if both indices denote the same row.) -/
def repeats (n : ℕ) : List ℕ := (List.range n).map fun k : ℕ => if k = 0 ∨ k + 1 = n then 1 + n else 1

/-- `np.repeat(g, counts, axis=0)` — observation.py:113. -/
def repeatSpeeds (g : Grid3) (counts : List ℕ) : Grid3 :=
  let rows := (List.range counts.length).flatMap fun k : ℕ => List.replicate (counts.getD k 0) k
  { g with s := rows.length, at' := fun h => g.at' (rows.getD h 0) }

end Grid3

/-- The three points of the other vehicle that may be hit, with their cost: centre, back and front — finite_mdp.py:104-105. -/
def collisionPoints : List (ℝ × ℝ) :=
  let margin := Vehicle.LENGTH / 2 + Vehicle.LENGTH / 2
  [(0, 1), (-margin, 1 / 2), (margin, 1 / 2)]

/-- Time to collision at speed `egoSpeed` — finite_mdp.py:107-109. -/
def timeToCollision (v w : Vehicle) (egoSpeed m : ℝ) : ℝ :=
  (v.laneDistanceTo w.pos + m) / notZero (egoSpeed - w.speed * w.direction.dot v.direction)

/-- The lanes on which another vehicle is expected — finite_mdp.py:114-120. -/
def expectedLanes (g : Graph) (v w : Vehicle) (lanes : ℕ) : Py (List Int) := do
  let there ← g.allSideLanes w.laneIndex
  let here ← g.allSideLanes v.laneIndex
  return if there.length = here.length then [w.laneIndex.id] else (List.range lanes).map fun k : ℕ => (k : Int)

/-- Writing one time index — finite_mdp.py:122-125. -/
def putTime (h : ℕ) (lanes : List Int) (c : ℝ) (grid : Grid3) (time : Int) : Py Grid3 :=
  if 0 ≤ time ∧ time < grid.t then grid.raise h lanes time.toNat c else .ok grid

/-- One collision point of another vehicle — finite_mdp.py:106-125. -/
def ttcPoint (g : Graph) (v w : Vehicle) (q : ℝ) (h : ℕ) (egoSpeed : ℝ) (grid : Grid3) (mc : ℝ × ℝ) : Py Grid3 :=
  let ttc := timeToCollision v w egoSpeed mc.1
  if ttc < 0 then .ok grid
  else if g.isConnectedRoad v.laneIndex.toStep w.laneIndex.toStep v.route false 3 then do
    let lanes ← expectedLanes g v w grid.l
    [pyInt (ttc / q), ⌈ttc / q⌉].foldlM (putTime h lanes mc.2) grid
  else .ok grid

/-- One other vehicle at one speed — finite_mdp.py:101-125. -/
def ttcOther (g : Graph) (v : Vehicle) (q : ℝ) (h : ℕ) (egoSpeed : ℝ) (grid : Grid3) (w : Vehicle) : Py Grid3 :=
  if w.uid = v.uid ∨ egoSpeed = w.speed then .ok grid
  else collisionPoints.foldlM (ttcPoint g v w q h egoSpeed) grid

/-- `compute_ttc_grid` — finite_mdp.py:80-126.  `egoLane` is the lane index of `env.vehicle`, `v` the observer; only `MDPVehicle` has
speed levels.  A zero time quantum divides by zero, a negative number of times is a `ValueError`. -/
def computeTtcGrid (G : Globals) (r : Road) (egoLane : LaneIndex) (v : Vehicle) (q horizon : ℝ) : Py Grid3 := do
  let roadLanes ← r.network.allSideLanes egoLane
  if v.kind ≠ .mdp then .error .attributeError
  else if q = 0 then .error .zeroDivisionError
  else if pyInt (horizon / q) < 0 then .error .valueError
  else
    let grid := Grid3.zeros G.speedCount roadLanes.length (pyInt (horizon / q)).toNat
    (List.range G.speedCount).foldlM (fun grid h => r.vehicles.foldlM (ttcOther r.network v q h (Vehicle.indexToSpeed G h)) grid) grid

/-- `TimeToCollisionObservation.observe` on a road — observation.py:99-118.  A policy frequency of zero divides by zero. -/
def ttcObserve (G : Globals) (r : Road) (egoLane : LaneIndex) (v : Vehicle) (horizon policyFrequency : ℝ) : Py Grid3 :=
  if policyFrequency = 0 then .error .zeroDivisionError
  else do
    let grid ← computeTtcGrid G r egoLane v (1 / policyFrequency) horizon
    let padded := grid.padLanes
    let l0 : Int := grid.l + v.laneIndex.id - 1
    let lf : Int := grid.l + v.laneIndex.id + 1
    let clamped := padded.sliceLanes l0 (lf + 1)
    let padded := clamped.repeatSpeeds (Grid3.repeats clamped.s)
    let v0 : Int := grid.s + v.speedIndex - 1
    let vf : Int := grid.s + v.speedIndex + 1
    return padded.sliceSpeeds v0 (vf + 1)

/-- `np.ravel_multi_index((h, i, j), (s, l, t))` for indices in range (otherwise `ValueError`). -/
def ravel (s l t : ℕ) (h i j : Int) : Py ℕ :=
  if 0 ≤ h ∧ h < s ∧ 0 ≤ i ∧ i < l ∧ 0 ≤ j ∧ j < t then .ok ((h.toNat * l + i.toNat) * t + j.toNat) else .error .valueError

/-- `clip_position` — finite_mdp.py:154-168, on one cell. -/
def clipPosition (s l t : ℕ) (h i j : Int) : Py ℕ :=
  ravel s l t (npClipInt h 0 (s - 1)) (npClipInt i 0 (l - 1)) (npClipInt j 0 (t - 1))

/-- `next_state[mask] = new[mask]`, on one cell. -/
def assignIf (mask : Prop) (new : Py ℕ) (old : ℕ) : Py ℕ := if mask then new else .ok old

/-- `transition_model` — finite_mdp.py:129-151, on one cell: the assignments through boolean masks are made in order. -/
def transitionModel (s l t : ℕ) (h i j : Int) (a : ℕ) : Py ℕ := do
  let next ← clipPosition s l t h i (j + 1)
  let next ← assignIf (a = 0) (clipPosition s l t h (i - 1) (j + 1)) next
  let next ← assignIf (a = 2) (clipPosition s l t h (i + 1) (j + 1)) next
  let next ← assignIf (a = 3 ∧ j = 0) (clipPosition s l t (h + 1) i (j + 1)) next
  assignIf (a = 4 ∧ j = 0) (clipPosition s l t (h - 1) i (j + 1)) next

/-- The arguments of `DeterministicMDP(transition, reward, terminal, state)`: `transition` is row-major over (speed, lane, time, action),
i.e. indexed by flat state and action. -/
structure FiniteMdp where
  s : ℕ
  l : ℕ
  t : ℕ
  transition : ℕ → ℕ → Py ℕ
  reward : ℕ → ℕ → ℝ
  terminal : ℕ → Bool
  state : ℕ

/-- The weights `finite_mdp` reads from the environment — finite_mdp.py:57-63. -/
structure MdpWeights where
  collision : ℝ := -1
  rightLane : ℝ := 1 / 10
  highSpeed : ℝ := 4 / 10
  laneChange : ℝ := 0

/-- Coordinates of a flat index in an array of shape `(s, l, t)` (row-major order). -/
def unravel (l t n : ℕ) : ℕ × ℕ × ℕ := (n / t / l, n / t % l, n % t)

/-- Reward of a cell — finite_mdp.py:53-62. -/
def stateReward (w : MdpWeights) (grid : Grid3) (h i j : ℕ) : ℝ :=
  w.collision * grid.at' h i j + w.rightLane * ((i : ℝ) / (max ((grid.l : Int) - 1) 1 : Int))
    + w.highSpeed * ((h : ℝ) / (max ((grid.s : Int) - 1) 1 : Int))

/-- `finite_mdp` — finite_mdp.py:14-76, up to the construction of the object (the package `finite_mdp` is external).  Actions are
0 to 4 in the order of the full set of meta-actions. -/
def finiteMdp (G : Globals) (r : Road) (v : Vehicle) (w : MdpWeights) (q horizon : ℝ) : Py FiniteMdp := do
  let grid ← computeTtcGrid G r v.laneIndex v q horizon
  let state ← ravel grid.s grid.l grid.t v.speedIndex v.laneIndex.id 0
  return {
    s := grid.s, l := grid.l, t := grid.t
    transition := fun n a => let c := unravel grid.l grid.t n; transitionModel grid.s grid.l grid.t c.1 c.2.1 c.2.2 a
    reward := fun n a => let c := unravel grid.l grid.t n
      stateReward w grid c.1 c.2.1 c.2.2 + if a = 0 ∨ a = 2 then w.laneChange else 0
    terminal := fun n => let c := unravel grid.l grid.t n
      decide (grid.at' c.1 c.2.1 c.2.2 = 1) || decide (c.2.2 + 1 = grid.t)
    state := state }

end HighwayEnv
