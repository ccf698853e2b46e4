import Verif.Model.Env

/-!
# Model of the random creation of vehicles — highway_env/vehicle/kinematics.py:69-96
-/

noncomputable section
open Classical

namespace HighwayEnv

/-- `np_random.uniform(lo, hi)`: `lo + u (hi - lo)` with `u` in `[0, 1)`. -/
def Rng.uniform (r : Rng) (lo hi : ℝ) : ℝ × Rng :=
  let p := r.uniform01
  (lo + p.1 * (hi - lo), p.2)

/-- `np_random.choice(l)` on a non-empty list: an element at a random position (`ValueError` on an empty list). -/
def Rng.choice {α : Type} (r : Rng) (l : List α) : Py (α × Rng) := do
  let (k, r) ← r.randint l.length
  match l[k]? with
  | some a => return (a, r)
  | none => .error .indexError

/-- `np.max(l)` for a non-empty list. -/
def npMax : List ℝ → ℝ
  | [] => 0
  | x :: xs => xs.foldl max x

namespace Vehicle

/-- Speed of a random vehicle: the given one, or uniform in `DEFAULT_SPEEDS = [23, 25]` — kinematics.py:32, 84-85. -/
def randomSpeed (rng : Rng) (speed : Option ℝ) : ℝ × Rng :=
  match speed with
  | some s => (s, rng)
  | none => rng.uniform 23 25

/-- Lane number of a random vehicle: the given one, or a random one — kinematics.py:89. -/
def randomLane (rng : Rng) (n : ℕ) (laneId : Option Int) : Py (Int × Rng) :=
  match laneId with
  | some k => .ok (k, rng)
  | none => do
    let (k, rng) ← rng.randint n
    return ((k : Int), rng)

/-- `offset = spacing * 1.5 * speed * exp(-5/30 * lanes)` — kinematics.py:86, 91. -/
def randomOffset (spacing speed : ℝ) (lanes : ℕ) : ℝ := spacing * (3 / 2 * speed) * Real.exp (-5 / 30 * lanes)

/-- The abscissa behind which a random vehicle is placed — kinematics.py:92-93. -/
def lastAbscissa (lane : Lane) (vs : List Vehicle) (offset : ℝ) : ℝ :=
  if vs ≠ [] then npMax (vs.map fun v => (lane.localCoordinates v.pos).1) else 3 * offset

/-- `create_random` — kinematics.py:69-96. -/
def createRandom (G : Globals) (r : Road) (uid : ℕ) (kind : VKind) (speed : Option ℝ := none) (laneId : Option Int := none)
    (spacing : ℝ := 1) : Py (Vehicle × Rng) := do
  let s := randomSpeed r.rng speed
  let (src, rng) ← s.2.choice (Dict.keys r.network)
  let d ← Dict.getItem r.network src
  let (dst, rng) ← rng.choice (Dict.keys d)
  let ls ← r.network.lanesOf src dst
  let (k, rng) ← randomLane rng ls.length laneId
  let lane ← r.network.getLane ⟨src, dst, k⟩
  let offset := randomOffset spacing s.1 ls.length
  let u := rng.uniform (9 / 10) (11 / 10)
  let x0 := lastAbscissa lane r.vehicles offset + offset * u.1
  let v ← mk' G r.network uid kind (lane.position x0 0) (lane.headingAt x0) s.1
  return (v, u.2)

end Vehicle

namespace Road

/-- `road.vehicles.append(cls.create_random(road, ...))`, repeated `n` times; the new objects get the identities `uid`, `uid + 1`, … -/
def addRandom (G : Globals) (kind : VKind) (speed : Option ℝ) (laneId : Option Int) (spacing : ℝ) : ℕ → ℕ → Road → Py Road
  | 0, _, r => .ok r
  | n + 1, uid, r => do
    let (v, rng) ← Vehicle.createRandom G r uid kind speed laneId spacing
    addRandom G kind speed laneId spacing n (uid + 1) { r with vehicles := r.vehicles ++ [v], rng := rng }

end Road
end HighwayEnv
