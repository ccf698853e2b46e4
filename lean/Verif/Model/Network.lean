import Verif.Model.Lane

/-!
# Model of `RoadNetwork` — highway_env/road/road.py:19-231
-/

noncomputable section
open Classical

namespace HighwayEnv

/-- `LaneIndex = Tuple[str, str, int]` — road.py:15. -/
@[ext] structure LaneIndex where
  src : String
  dst : String
  id : Int
  deriving DecidableEq

/-- An element of a `Route` — road.py:16.  `plan_route_to` (controller.py:70) stores `None` as lane id. -/
@[ext] structure RouteStep where
  src : String
  dst : String
  id : Option Int
  deriving DecidableEq

/-- A lane index used where a route element is expected. -/
def LaneIndex.toStep (i : LaneIndex) : RouteStep := ⟨i.src, i.dst, some i.id⟩

/-- `RoadNetwork.graph : Dict[str, Dict[str, List[AbstractLane]]]` — road.py:20, insertion ordered. -/
abbrev Graph := Dict String (Dict String (List Lane))

/-- Source of randomness (`np.random.RandomState`): an arbitrary stream of naturals for integer draws and an arbitrary
stream of reals for continuous draws.  Theorems quantify over the streams, i.e. over every seed. -/
structure Rng where
  ints : ℕ → ℕ
  reals : ℕ → ℝ
  ipos : ℕ := 0
  rpos : ℕ := 0

/-- `np_random.randint(n)`: a value in `[0, n)`; `ValueError` when `n = 0`. -/
def Rng.randint (r : Rng) (n : ℕ) : Py (ℕ × Rng) :=
  if n = 0 then .error .valueError else .ok (r.ints r.ipos % n, { r with ipos := r.ipos + 1 })

/-- `np_random.uniform()`-style draw in `[0, 1)`: fractional part of the next real of the stream. -/
def Rng.uniform01 (r : Rng) : ℝ × Rng := (Int.fract (r.reals r.rpos), { r with rpos := r.rpos + 1 })

/-- `np_random.normal()`-style draw: an arbitrary real. -/
def Rng.normal (r : Rng) : ℝ × Rng := (r.reals r.rpos, { r with rpos := r.rpos + 1 })

namespace Graph

/-- `add_lane` — road.py:25-37. -/
def addLane (g : Graph) (src dst : String) (l : Lane) : Graph :=
  let g := if Dict.get? g src = none then Dict.setItem g src [] else g
  let d := (Dict.get? g src).getD []
  let d := if Dict.get? d dst = none then Dict.setItem d dst [] else d
  let ls := (Dict.get? d dst).getD []
  Dict.setItem g src (Dict.setItem d dst (ls ++ [l]))

/-- `self.graph[_from][_to]`. -/
def lanesOf (g : Graph) (src dst : String) : Py (List Lane) := do
  let d ← Dict.getItem g src
  Dict.getItem d dst

/-- `get_lane` — road.py:39-49.  A lane id `None` is accepted only on single-lane roads (otherwise indexing a list with
`None` raises `TypeError`); negative ids index from the end as in Python. -/
def getLaneStep (g : Graph) (i : RouteStep) : Py Lane := do
  let ls ← g.lanesOf i.src i.dst
  match i.id with
  | none => if ls.length = 1 then pyIndex ls 0 else .error .typeError
  | some k => pyIndex ls k

/-- `get_lane` for an integer lane id — road.py:39-49. -/
def getLane (g : Graph) (i : LaneIndex) : Py Lane := g.getLaneStep i.toStep

/-- All lanes with their indexes, in the order in which `get_closest_lane_index` enumerates them — road.py:60-64. -/
def indexedLanes (g : Graph) : List (LaneIndex × Lane) :=
  g.flatMap fun (src, d) => d.flatMap fun (dst, ls) =>
    ls.zipIdx.map fun (l, k) => (⟨src, dst, (k : Int)⟩, l)

/-- First element minimising `f` (`np.argmin`, and `min(..., key=f)`). -/
def firstMin {α : Type*} (f : α → ℝ) : List α → Option α
  | [] => none
  | a :: l =>
    match firstMin f l with
    | none => some a
    | some b => if f a ≤ f b then some a else some b

/-- `get_closest_lane_index` — road.py:51-65.  `np.argmin([])` raises `ValueError`. -/
def getClosestLaneIndex (g : Graph) (p : Vec2) (heading : Option ℝ) : Py LaneIndex :=
  match firstMin (fun il : LaneIndex × Lane => il.2.distanceWithHeading p heading) g.indexedLanes with
  | none => .error .valueError
  | some il => .ok il.1

/-- Route handling at the top of `next_lane` — road.py:82-91: returns the (possibly shortened) route, which the caller's
list becomes since `route.pop(0)` is in place, and the planned next node if any. -/
def nextFromRoute (cur : LaneIndex) (route : Option (List RouteStep)) : Option (List RouteStep) × Option String :=
  match route with
  | none => (none, none)
  | some [] => (some [], none)
  | some (s :: rest) =>
    let r := if s.src = cur.src ∧ s.dst = cur.dst then rest else s :: rest
    match r with
    | [] => (some [], none)
    | s' :: _ => if s'.src = cur.dst then (some r, some s'.dst) else (some r, none)

/-- Truthiness of `next_to`: `None` and the empty string are false — road.py:93. -/
def strTruthy (o : Option String) : Bool := match o with | none => false | some s => s != ""

/-- Second half of `next_lane` — road.py:100-109: choice of the lane on the next road. -/
def nextLaneOn (g : Graph) (cur : LaneIndex) (nextTo : String) (p : Vec2) : Py LaneIndex := do
  let here ← g.lanesOf cur.src cur.dst
  let there ← g.lanesOf cur.dst nextTo
  if here.length = there.length then
    .ok ⟨cur.dst, nextTo, cur.id⟩
  else
    match firstMin (fun lk : Lane × ℕ => lk.1.distance p) there.zipIdx with
    | none => .error .valueError
    | some lk => .ok ⟨cur.dst, nextTo, (lk.2 : Int)⟩

/-- `next_lane` — road.py:67-109.  Returns the next index, the route after the in-place `pop`, and the generator state. -/
def nextLane (g : Graph) (cur : LaneIndex) (route : Option (List RouteStep)) (p : Vec2) (rng : Rng) :
    Py (LaneIndex × Option (List RouteStep) × Rng) := do
  let (route, nextTo) := nextFromRoute cur route
  if strTruthy nextTo then
    let i ← g.nextLaneOn cur (nextTo.getD "") p
    return (i, route, rng)
  else
    match Dict.get? g cur.dst with
    | none => return (cur, route, rng)            -- `except KeyError: return current_index`
    | some d =>
      let (k, rng) ← rng.randint d.length
      let nextTo := (Dict.keys d).getD k ""       -- `k < len(d)`, so the default is never used
      let i ← g.nextLaneOn cur nextTo p
      return (i, route, rng)

/-- Iteration order of the set `set(graph[node].keys()) - set(path)` in `bfs_paths`: an arbitrary rearrangement,
which may depend on the path being expanded. -/
structure SetOrder where
  order : List String → List String → List String
  perm : ∀ path l, (order path l).Perm l

/-- What a Python generator produces: the yielded values and the exception that ends it, if any. -/
structure Gen (α : Type*) where
  yields : List α
  err : Option PyErr

/-- Keys of `graph[node]` not on the path — road.py:124. -/
def freshSuccs (d : Dict String (List Lane)) (path : List String) : List String :=
  ((Dict.keys d).dedup).filter (fun n => n ∉ path)

/-- Termination weight of a queued path: the number of graph nodes it has not visited. -/
def remaining (g : Graph) (path : List String) : ℕ := ((Dict.keys g).filter (fun n => n ∉ path)).length

/-- An upper bound on the number of successors of a node. -/
def degBound (g : Graph) : ℕ := (g.map fun nd => nd.2.length).sum

/-- Termination measure of the breadth-first queue. -/
def queueWeight (g : Graph) (q : List (String × List String)) : ℕ :=
  (q.map fun np => (g.degBound + 1) ^ (g.remaining np.2)).sum

theorem get?_length_le (g : Graph) (n : String) (d : Dict String (List Lane)) (h : Dict.get? g n = some d) :
    d.length ≤ g.degBound := by
  induction g with
  | nil => simp [Dict.get?] at h
  | cons a g ih =>
    obtain ⟨k, e⟩ := a
    unfold Dict.get? at h
    simp only [degBound, List.map_cons, List.sum_cons]
    split at h
    · injection h with h; subst h; omega
    · have := ih h
      unfold degBound at this; omega

theorem mem_keys_of_get? {g : Graph} {n : String} (h : Dict.get? g n ≠ none) : n ∈ Dict.keys g := by
  induction g with
  | nil => simp [Dict.get?] at h
  | cons a g ih =>
    obtain ⟨k, e⟩ := a
    unfold Dict.get? at h
    by_cases hk : k = n
    · simp [Dict.keys, hk]
    · simp only [hk, if_false] at h
      have := ih h
      simp only [Dict.keys, List.map_cons, List.mem_cons] at *
      exact .inr this

theorem remaining_append_lt {g : Graph} {path : List String} {n : String} (h1 : Dict.get? g n ≠ none)
    (h2 : n ∉ path) : g.remaining (path ++ [n]) < g.remaining path := by
  unfold remaining
  have hmem := mem_keys_of_get? h1
  have hsub : ((Dict.keys g).filter (fun m => m ∉ path ++ [n])) =
      ((Dict.keys g).filter (fun m => m ∉ path)).filter (fun m => m ≠ n) := by
    rw [List.filter_filter]
    congr 1; funext m; simp [and_comm]
  rw [hsub]
  apply List.length_filter_lt_length_iff_exists.2
  exact ⟨n, List.mem_filter.2 ⟨hmem, by simpa using h2⟩, by simp⟩

/-- Successors appended to the queue by one iteration of `bfs_paths` — road.py:124-128. -/
def bfsChildren (g : Graph) (ord : SetOrder) (goal : String) (d : Dict String (List Lane)) (path : List String) :
    List (String × List String) :=
  ((ord.order path (freshSuccs d path)).filter
    (fun n => n ≠ goal ∧ Dict.get? g n ≠ none)).map (fun n => (n, path ++ [n]))

theorem sum_le_of_forall {l : List ℕ} {b : ℕ} (h : ∀ x ∈ l, x ≤ b) : l.sum ≤ l.length * b := by
  induction l with
  | nil => simp
  | cons a l ih =>
    simp only [List.sum_cons, List.length_cons]
    have h1 := h a (by simp)
    have h2 := ih (fun x hx => h x (by simp [hx]))
    rw [Nat.add_mul, one_mul]; omega

theorem bfs_decreases (g : Graph) (ord : SetOrder) (goal node : String) (path : List String)
    (d : Dict String (List Lane)) (hd : Dict.get? g node = some d) (q : List (String × List String)) :
    g.queueWeight (q ++ g.bfsChildren ord goal d path) < g.queueWeight ((node, path) :: q) := by
  have hlen : (g.bfsChildren ord goal d path).length ≤ g.degBound := by
    unfold bfsChildren
    rw [List.length_map]
    calc _ ≤ _ := List.length_filter_le _ _
      _ = (freshSuccs d path).length := (ord.perm _ _).length_eq
      _ ≤ ((Dict.keys d).dedup).length := List.length_filter_le _ _
      _ ≤ (Dict.keys d).length := (List.dedup_sublist _).length_le
      _ = d.length := by simp [Dict.keys]
      _ ≤ _ := get?_length_le g node d hd
  have hw : ∀ x ∈ (g.bfsChildren ord goal d path).map (fun np => (g.degBound + 1) ^ (g.remaining np.2)),
      x ≤ (g.degBound + 1) ^ (g.remaining path - 1) := by
    intro x hx
    simp only [bfsChildren, List.map_map, List.mem_map, List.mem_filter, Function.comp, decide_eq_true_eq] at hx
    obtain ⟨n, ⟨hn, _, hg⟩, rfl⟩ := hx
    have hfresh := (ord.perm path (freshSuccs d path)).mem_iff.1 hn
    simp only [freshSuccs, List.mem_filter, decide_eq_true_eq] at hfresh
    have := remaining_append_lt hg hfresh.2
    exact Nat.pow_le_pow_right (by omega) (by omega)
  have hs := sum_le_of_forall hw
  rw [List.length_map] at hs
  unfold queueWeight
  rw [List.map_append, List.sum_append, List.map_cons, List.sum_cons]
  simp only
  rcases Nat.eq_zero_or_pos (g.bfsChildren ord goal d path).length with h0 | hpos
  · rw [h0] at hs
    have : 0 < (g.degBound + 1) ^ (g.remaining path) := Nat.pow_pos (by omega)
    omega
  · have hr : 0 < g.remaining path := by
      obtain ⟨⟨n, pn⟩, hnp⟩ := List.exists_mem_of_length_pos hpos
      simp only [bfsChildren, List.mem_map, List.mem_filter, decide_eq_true_eq] at hnp
      obtain ⟨n', ⟨hn, _, hg⟩, _⟩ := hnp
      have hfresh := (ord.perm path (freshSuccs d path)).mem_iff.1 hn
      simp only [freshSuccs, List.mem_filter, decide_eq_true_eq] at hfresh
      have := remaining_append_lt hg hfresh.2
      omega
    obtain ⟨m, hm⟩ : ∃ m, g.remaining path = m + 1 := ⟨g.remaining path - 1, by omega⟩
    rw [hm] at hs ⊢
    simp only [Nat.add_sub_cancel] at hs
    have hp : 0 < (g.degBound + 1) ^ m := Nat.pow_pos (by omega)
    have h3 := Nat.mul_le_mul_right ((g.degBound + 1) ^ m) hlen
    rw [pow_succ, Nat.mul_add, mul_one, Nat.mul_comm _ g.degBound]
    omega

/-- `bfs_paths` — road.py:111-128, the loop on the queue of `(node, path)` pairs.  Within one iteration the goal, if it
is a fresh successor, is yielded once. -/
def bfsLoop (g : Graph) (ord : SetOrder) (goal : String) (queue : List (String × List String)) : Gen (List String) :=
  match queue with
  | [] => ⟨[], none⟩
  | (node, path) :: q =>
    match _hd : Dict.get? g node with
    | none => ⟨[[]], some .keyError⟩                 -- `yield []`, then `self.graph[node]` raises
    | some d =>
      let here := if goal ∈ ord.order path (freshSuccs d path) then [path ++ [goal]] else []
      let rest := bfsLoop g ord goal (q ++ g.bfsChildren ord goal d path)
      ⟨here ++ rest.yields, rest.err⟩
termination_by g.queueWeight queue
decreasing_by exact bfs_decreases g ord goal node path d _hd q

/-- `bfs_paths(start, goal)` — road.py:111-128. -/
def bfsPaths (g : Graph) (ord : SetOrder) (start goal : String) : Gen (List String) :=
  g.bfsLoop ord goal [(start, [start])]

/-- `shortest_path` — road.py:130-138: `next(bfs_paths(...), [])`. -/
def shortestPath (g : Graph) (ord : SetOrder) (start goal : String) : Py (List String) :=
  match (g.bfsPaths ord start goal).yields with
  | p :: _ => .ok p
  | [] => match (g.bfsPaths ord start goal).err with
    | none => .ok []
    | some e => .error e

/-- `all_side_lanes` — road.py:140-145. -/
def allSideLanes (g : Graph) (i : LaneIndex) : Py (List LaneIndex) := do
  let ls ← g.lanesOf i.src i.dst
  return (List.range ls.length).map fun k : ℕ => ⟨i.src, i.dst, (k : Int)⟩

/-- `side_lanes` — road.py:147-158.  (The length is read only after the test `_id > 0`, with no effect on the result.) -/
def sideLanes (g : Graph) (i : LaneIndex) : Py (List LaneIndex) := do
  let ls ← g.lanesOf i.src i.dst
  return (if i.id > 0 then [⟨i.src, i.dst, i.id - 1⟩] else []) ++
    (if i.id < ls.length - 1 then [⟨i.src, i.dst, i.id + 1⟩] else [])

/-- `is_same_road` — road.py:160-163. -/
def isSameRoad (a b : RouteStep) (sameLane : Bool := false) : Bool :=
  decide (a.src = b.src ∧ a.dst = b.dst) && (!sameLane || decide (a.id = b.id))

/-- `is_leading_to_road` — road.py:165-168. -/
def isLeadingToRoad (a b : RouteStep) (sameLane : Bool := false) : Bool :=
  decide (a.dst = b.src) && (!sameLane || decide (a.id = b.id))

/-- `self.graph.get(_to, {}).keys()` — road.py:197. -/
def succs (g : Graph) (n : String) : List String := Dict.keys ((Dict.get? g n).getD [])

/-- `is_connected_road` — road.py:170-198.  `route` is `none` for `None`. -/
def isConnectedRoad (g : Graph) (a b : RouteStep) (route : Option (List RouteStep) := none)
    (sameLane : Bool := false) (depth : ℕ := 0) : Bool :=
  if isSameRoad b a sameLane || isLeadingToRoad b a sameLane then true
  else match depth with
    | 0 => false
    | n + 1 =>
      match route with
      | some (s :: rest) =>
        if s.src = a.src ∧ s.dst = a.dst then g.isConnectedRoad a b (some rest) sameLane (n + 1)
        else if s.src = a.dst then g.isConnectedRoad s b (some rest) sameLane n
        else (g.succs a.dst).any fun t => g.isConnectedRoad ⟨a.dst, t, a.id⟩ b (some (s :: rest)) sameLane n
      | r => (g.succs a.dst).any fun t => g.isConnectedRoad ⟨a.dst, t, a.id⟩ b r sameLane n
termination_by (depth, (route.getD []).length)

/-- `lanes_list` — road.py:200-201. -/
def lanesList (g : Graph) : List Lane := g.flatMap fun nd => nd.2.flatMap fun kl => kl.2

/-- `straight_road_network` — road.py:203-215.  The rotation matrix is `[[cos, sin], [-sin, cos]]`. -/
def straightRoadNetwork (lanes : ℕ := 4) (length : ℝ := 10000) (angle : ℝ := 0) : Graph :=
  (List.range lanes).foldl (fun (net : Graph) (k : ℕ) =>
    let rotm : Vec2 → Vec2 := fun v =>
      ⟨Real.cos angle * v.x + Real.sin angle * v.y, -Real.sin angle * v.x + Real.cos angle * v.y⟩
    let origin := rotm ⟨0, k * Lane.DEFAULT_WIDTH⟩
    let stop := rotm ⟨length, k * Lane.DEFAULT_WIDTH⟩
    net.addLane "0" "1" { shape := .straight origin stop }) []

/-- `position_heading_along_route` — road.py:217-230.  An empty route raises `IndexError`. -/
def positionHeadingAlongRoute (g : Graph) (route : List RouteStep) (lon lat : ℝ) : Py (Vec2 × ℝ) :=
  match route with
  | [] => .error .indexError
  | [s] => do let l ← g.getLaneStep s; return (l.position lon lat, l.headingAt lon)
  | s :: t :: rest => do
    let l ← g.getLaneStep s
    if lon > l.length then g.positionHeadingAlongRoute (t :: rest) (lon - l.length) lat
    else return (l.position lon lat, l.headingAt lon)

end Graph
end HighwayEnv
