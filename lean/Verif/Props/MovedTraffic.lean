import Verif.Props.Moved
import Verif.Props.InterTraffic
import Verif.Model.Envs.Intersection
import Verif.Model.Envs.Summon
import Verif.Model.Envs.LaneKeeping
import Verif.Props.LaneKeeping
import Verif.Props.Intersection
import Verif.Props.Summon

/-!
# C120 (continued) — the environments that create traffic while running, summon and lane keeping, in a displaced world
-/

noncomputable section
open Classical

namespace HighwayEnv

namespace Graph
variable (t : Vec2)

theorem remaining_tr (g : Graph) (path : List String) : (g.translate t).remaining path = g.remaining path := by
  unfold remaining translate
  rw [Dict.keys_map]

theorem get?_none_tr (g : Graph) (n : String) : Dict.get? (g.translate t) n = none ↔ Dict.get? g n = none := by
  rw [get?_tr]; simp

theorem freshSuccs_tr (d : Dict String (List Lane)) (path : List String) :
    freshSuccs (d.map fun ml => (ml.1, ml.2.map (Lane.translate t))) path = freshSuccs d path := by
  unfold freshSuccs
  rw [Dict.keys_map]

theorem bfsChildren_tr (g : Graph) (ord : SetOrder) (goal : String) (d : Dict String (List Lane)) (path : List String) :
    (g.translate t).bfsChildren ord goal (d.map fun ml => (ml.1, ml.2.map (Lane.translate t))) path = g.bfsChildren ord goal d path := by
  unfold bfsChildren
  rw [freshSuccs_tr]
  simp only [ne_eq, get?_none_tr]

theorem bfsLoop_tr (g : Graph) (ord : SetOrder) (goal : String) (q : List (String × List String)) :
    (g.translate t).bfsLoop ord goal q = g.bfsLoop ord goal q := by
  induction q using bfsLoop.induct g ord goal with
  | case1 => unfold bfsLoop; rfl
  | case2 node path q hd =>
    rw [bfsLoop.eq_def g, bfsLoop.eq_def (g.translate t)]
    dsimp only
    have h' : Dict.get? (g.translate t) node = none := (get?_none_tr t g node).2 hd
    split
    · split
      · rfl
      · rename_i h; rw [hd] at h; cases h
    · rename_i h; rw [h'] at h; cases h
  | case3 node path q d hd ih =>
    rw [bfsLoop.eq_def g, bfsLoop.eq_def (g.translate t)]
    dsimp only
    have h' : Dict.get? (g.translate t) node = some (d.map fun ml => (ml.1, ml.2.map (Lane.translate t))) := by rw [get?_tr, hd]; rfl
    split
    · rename_i h; rw [h'] at h; cases h
    · rename_i d' h
      rw [h'] at h
      cases h
      rw [freshSuccs_tr, bfsChildren_tr, ih]
      symm
      split
      · rename_i h; rw [hd] at h; cases h
      · rename_i d'' h
        rw [hd] at h
        cases h
        rfl

theorem shortestPath_tr (g : Graph) (ord : SetOrder) (a b : String) : (g.translate t).shortestPath ord a b = g.shortestPath ord a b := by
  unfold shortestPath bfsPaths
  rw [bfsLoop_tr]

end Graph

namespace Vehicle
variable (t : Vec2)

theorem planRouteTo_tr (g : Graph) (ord : Graph.SetOrder) (v : Vehicle) (d : String) :
    (v.translate t).planRouteTo (g.translate t) ord d = (v.planRouteTo g ord d).map (Vehicle.translate t) := by
  unfold planRouteTo
  have hl : (v.translate t).laneIndex = v.laneIndex := rfl
  rw [Graph.shortestPath_tr, hl]
  cases g.shortestPath ord v.laneIndex.dst d with
  | error x => cases x <;> rfl
  | ok p => rfl

theorem clock_tr (ht : Spec.KeepsClock t) (p : Vec2) : pyMod (((p + t).x + (p + t).y) * Real.pi) 1 = pyMod ((p.x + p.y) * Real.pi) 1 := by
  obtain ⟨k, hk⟩ := ht
  unfold pyMod
  have : ((p + t).x + (p + t).y) * Real.pi = (p.x + p.y) * Real.pi + k := by simp [← hk]; ring
  rw [this, div_one, div_one, Int.floor_add_intCast]
  push_cast; ring

theorem mk'_tr (ht : Spec.KeepsClock t) (G : Globals) (g : Graph) (uid : ℕ) (kind : VKind) (pos : Vec2) (heading speed : ℝ)
    (tl : Option LaneIndex) (ts : Option ℝ) (ro : Option (List RouteStep)) (el : Bool) (ti : Option ℝ) :
    mk' G (g.translate t) uid kind (pos + t) heading speed tl ts ro el ti = (mk' G g uid kind pos heading speed tl ts ro el ti).map (Vehicle.translate t) := by
  unfold mk'
  rw [Graph.getClosestLaneIndex_tr]
  cases g.getClosestLaneIndex pos (some heading) with
  | error x => rfl
  | ok i =>
    simp only [bind, Except.bind, Graph.getLane_tr]
    cases g.getLane i with
    | error x => rfl
    | ok l =>
      simp only [Except.map, clock_tr t ht]
      rfl

theorem makeOnLane_tr (ht : Spec.KeepsClock t) (G : Globals) (g : Graph) (uid : ℕ) (kind : VKind) (i : LaneIndex) (s : ℝ) (speed : Option ℝ) :
    makeOnLane G (g.translate t) uid kind i s speed = (makeOnLane G g uid kind i s speed).map (Vehicle.translate t) := by
  unfold makeOnLane
  rw [Graph.getLane_tr]
  cases g.getLane i with
  | error x => rfl
  | ok l =>
    have h1 : (l.translate t).position s 0 = l.position s 0 + t := Lane.position_tr t l s 0
    have h2 : (l.translate t).headingAt s = l.headingAt s := Lane.headingAt_tr t l s
    simp only [Except.map, bind, Except.bind, h1, h2]
    exact mk'_tr t ht ..

theorem randomizeVehicle_tr (v : Vehicle) (rng : Rng) :
    Env.randomizeVehicle (v.translate t) rng = ((Env.randomizeVehicle v rng).1.translate t, (Env.randomizeVehicle v rng).2) := by
  unfold Env.randomizeVehicle
  show (if v.kind.isLinear = true then _ else _) = _
  by_cases h : v.kind.isLinear = true
  · rw [if_pos h, if_pos h]; rfl
  · rw [if_neg h, if_neg h]

end Vehicle

namespace Intersection
variable (t : Vec2)

theorem hasArrived_tr (v : Vehicle) : hasArrived (v.translate t) = hasArrived v := by
  unfold hasArrived
  have : (v.translate t).lane.localCoordinates (v.translate t).pos = v.lane.localCoordinates v.pos := Lane.localCoordinates_tr t v.lane v.pos
  rw [this]; rfl

theorem isLeaving_tr (v : Vehicle) : isLeaving (v.translate t) = isLeaving v := by
  unfold isLeaving
  have : (v.translate t).lane.localCoordinates (v.translate t).pos = v.lane.localCoordinates v.pos := Lane.localCoordinates_tr t v.lane v.pos
  have h2 : (v.translate t).lane.length = v.lane.length := Lane.length_tr t v.lane
  rw [this, h2]; rfl

theorem agentReward_tr (G : Globals) (cfg : IntersectionConfig) (v : Vehicle) : agentReward G cfg (v.translate t) = agentReward G cfg v := by
  unfold agentReward
  simp only [hasArrived_tr]
  rfl

theorem egos_tr (e : Env) : egos (e.translate t) = (egos e).map (List.map (Vehicle.translate t)) := Props.egos_tr t e

theorem clear_tr (e : Env) : clear (e.translate t) = (clear e).translate t := by
  unfold clear Env.translate Road.translate
  simp only [List.filter_map]
  congr! 4
  funext v
  simp only [Function.comp, isLeaving_tr]
  rfl

theorem freshUid_tr (vs : List Vehicle) (n : ℕ) : freshUid (vs.map (Vehicle.translate t)) n = freshUid vs n := by
  unfold freshUid
  rw [List.foldr_map]; rfl

theorem prepare_tr (g : Graph) (ord : Graph.SetOrder) (v : Vehicle) (d : String) (rng : Rng) :
    prepare (g.translate t) ord (v.translate t) d rng = (prepare g ord v d rng).map fun p => (p.1.translate t, p.2) := by
  unfold prepare
  show (if v.kind.isIDM = true then _ else _) = _
  by_cases h : v.kind.isIDM = true
  · rw [if_pos h, if_pos h, Vehicle.planRouteTo_tr]
    cases v.planRouteTo g ord d with
    | error x => rfl
    | ok w => simp only [Except.map, bind, Except.bind, Vehicle.randomizeVehicle_tr]; rfl
  · rw [if_neg h, if_neg h]; rfl

theorem spawn_tr (ht : Spec.KeepsClock t) (G : Globals) (kind : VKind) (ord : Graph.SetOrder) (lon pd sd prob : ℝ) (go : Bool) (r : Road) (n : ℕ) :
    spawn G kind ord lon pd sd prob go (r.translate t, n) = (spawn G kind ord lon pd sd prob go (r, n)).map fun p => (p.1.translate t, p.2) := by
  unfold spawn
  dsimp only
  show (if prob < r.rng.uniform01.1 then _ else _) = _
  by_cases hp : prob < r.rng.uniform01.1
  · rw [if_pos hp, if_pos hp]; rfl
  rw [if_neg hp, if_neg hp]
  show (do let (ab, rng) ← twoSides r.rng.uniform01.2; _) = _
  cases twoSides r.rng.uniform01.2 with
  | error x => rfl
  | ok ab =>
    simp only [bind, Except.bind, Road.network_tr, Road.vehicles_tr, freshUid_tr, Vehicle.makeOnLane_tr t ht]
    generalize Vehicle.makeOnLane G r.network _ kind _ _ _ = mv
    cases mv with
    | error x => rfl
    | ok v =>
      simp only [Except.map]
      have hany : ((r.vehicles.map (Vehicle.translate t)).any fun w => decide ((w.pos - (v.translate t).pos).norm < 15)) =
          r.vehicles.any fun w => decide ((w.pos - v.pos).norm < 15) := by
        rw [List.any_map]
        congr 1
        funext w
        simp only [Function.comp, Vehicle.pos_tr, Vec2.add_sub_add]
      rw [hany]
      by_cases hb : (r.vehicles.any fun w => decide ((w.pos - v.pos).norm < 15)) = true
      · rw [if_pos hb, if_pos hb]; rfl
      rw [if_neg hb, if_neg hb, prepare_tr]
      generalize prepare r.network ord v _ _ = pv
      cases pv with
      | error x => rfl
      | ok w =>
        simp only [Except.map, Road.translate, List.map_append, pure, Except.pure]
        rfl

theorem after_tr (ht : Spec.KeepsClock t) (G : Globals) (cfg : IntersectionConfig) (ord : Graph.SetOrder) (e : Env) :
    after G cfg ord (e.translate t) = (after G cfg ord e).map (Env.translate t) := by
  unfold after
  dsimp only
  rw [clear_tr]
  have := spawn_tr t ht G cfg.otherVehiclesType ord 0 1 1 cfg.spawnProbability false (clear e).road (clear e).nextUid
  show (do let (r, n) ← spawn G cfg.otherVehiclesType ord 0 1 1 cfg.spawnProbability false ((clear e).road.translate t, (clear e).nextUid); _) = _
  rw [this]
  cases spawn G cfg.otherVehiclesType ord 0 1 1 cfg.spawnProbability false ((clear e).road, (clear e).nextUid) <;> rfl

end Intersection
end HighwayEnv

namespace HighwayEnv.Props
open HighwayEnv Spec

theorem mapM_reward_tr (t : Vec2) (G : Globals) (cfg : IntersectionConfig) (vs : List Vehicle) :
    (vs.map (Vehicle.translate t)).mapM (Intersection.agentReward G cfg) = vs.mapM (Intersection.agentReward G cfg) := by
  induction vs with
  | nil => rfl
  | cons v vs ih =>
    rw [List.map_cons, List.mapM_cons, List.mapM_cons, ih, Intersection.agentReward_tr]

/-- **C120.** The intersection environment, which lets vehicles enter at every step, is insensitive to the displacements that do not change the seed of
their lane-change clocks. -/
theorem intersection_positionFree (G : Globals) (cfg : IntersectionConfig) (ord : Graph.SetOrder) (t : Vec2) (ht : KeepsClock t) :
    PositionFreeAt t (Intersection.cls G cfg ord) where
  terminal e := by
    show Intersection.terminal cfg _ = Intersection.terminal cfg e
    unfold Intersection.terminal
    rw [Intersection.egos_tr]
    cases Intersection.egos e with
    | error x => rfl
    | ok vs =>
      simp only [Except.map, bind, Except.bind, List.any_map, List.all_map]
      have h1 : (Intersection.hasArrived ∘ Vehicle.translate t) = Intersection.hasArrived := funext (Intersection.hasArrived_tr t)
      rw [h1]
      rfl
  reward e a := by
    show Intersection.reward _ cfg _ = Intersection.reward _ cfg e
    unfold Intersection.reward
    rw [Intersection.egos_tr]
    cases Intersection.egos e with
    | error x => rfl
    | ok vs => simp only [Except.map, bind, Except.bind, mapM_reward_tr]
  cost e := by
    show Intersection.cost _ = Intersection.cost e
    unfold Intersection.cost
    rw [Env.vehicle_tr]
    cases e.vehicle <;> rfl
  after e := Intersection.after_tr t ht G cfg ord e

private theorem mk_clock {G : Globals} {g : Graph} {uid : ℕ} {kind : VKind} {i : LaneIndex} {s : ℝ} {x : Option ℝ} {v : Vehicle}
    (h : Vehicle.makeOnLane G g uid kind i s x = .ok v) : v.timer = pyMod ((v.pos.x + v.pos.y) * Real.pi) 1 := by
  unfold Vehicle.makeOnLane Vehicle.mk' at h
  obtain ⟨l, _, h⟩ := bind_ok h
  obtain ⟨j, _, h⟩ := bind_ok h
  obtain ⟨m, _, h⟩ := bind_ok h
  cases h
  simp [Lane.optTruthy]

private theorem plan_clock {g : Graph} {ord : Graph.SetOrder} {v w : Vehicle} {d : String} (h : v.planRouteTo g ord d = .ok w) :
    w.timer = v.timer ∧ w.pos = v.pos := by
  unfold Vehicle.planRouteTo at h
  cases hsp : g.shortestPath ord v.laneIndex.dst d with
  | ok p => rw [hsp] at h; cases h; exact ⟨rfl, rfl⟩
  | error e => rw [hsp] at h; cases e <;> cases h; exact ⟨rfl, rfl⟩

private theorem prepare_clock {g : Graph} {ord : Graph.SetOrder} {v v' : Vehicle} {d : String} {rng rng' : Rng}
    (h : Intersection.prepare g ord v d rng = .ok (v', rng')) : v'.timer = v.timer ∧ v'.pos = v.pos := by
  unfold Intersection.prepare at h
  split at h
  · obtain ⟨w, hw, h⟩ := bind_ok h
    rw [← (plan_clock hw).1, ← (plan_clock hw).2]
    have e := Except.ok.inj h
    have := congrArg Prod.fst e
    dsimp only at this
    rw [← this]
    unfold Env.randomizeVehicle
    split <;> exact ⟨rfl, rfl⟩
  · cases h

/-- **C120.** The lane-change clock of the vehicles that enter the intersection is read from their absolute position. -/
theorem entering_clock {G : Globals} {kind : VKind} {ord : Graph.SetOrder} {lon pd sd prob : ℝ} {go : Bool} {r r' : Road} {n n' : ℕ}
    (h : Intersection.spawn G kind ord lon pd sd prob go (r, n) = .ok (r', n')) :
    ∀ v ∈ r'.vehicles, v ∈ r.vehicles ∨ v.timer = pyMod ((v.pos.x + v.pos.y) * Real.pi) 1 := by
  unfold Intersection.spawn at h
  dsimp only at h
  split at h
  · cases h; exact fun v hv => .inl hv
  · obtain ⟨⟨ab, g⟩, _, h⟩ := bind_ok h
    dsimp only at h
    obtain ⟨v, hv, h⟩ := bind_ok h
    split at h
    · cases h; exact fun v hv => .inl hv
    · obtain ⟨⟨v', g'⟩, hv', h⟩ := bind_ok h
      cases h
      intro w hw
      rcases List.mem_append.1 hw with hw | hw
      · exact .inl hw
      · rw [List.mem_singleton] at hw
        subst hw
        right
        rw [(prepare_clock hv').1, (prepare_clock hv').2, mk_clock hv]

/-- **C120, counter-example.** The intersection environment does read absolute positions: in the same scene displaced by `1 / (2π)` metres, the vehicle
that enters has another lane-change clock. -/
theorem intersection_not_positionFree (G : Globals) (cfg : IntersectionConfig) (hk : cfg.otherVehiclesType.isIDM = true) (hp : 0 ≤ cfg.spawnProbability)
    (ord : Graph.SetOrder) : ¬ PositionFree (Intersection.cls G cfg ord) := by
  intro hfree
  set e : Env := { road := { network := interNet, rng := ⟨fun _ => 0, fun _ => 0, 0, 0⟩ }, controlled := [] } with he
  set t : Vec2 := ⟨1 / (2 * Real.pi), 0⟩ with ht
  obtain ⟨vs, rng, n', h1, h2⟩ := inter_spawn G hk ord 0 1 1 cfg.spawnProbability false e.road 0 rfl
  have hafter : (Intersection.cls G cfg ord).after e = .ok { e with road := { e.road with vehicles := vs, rng := rng }, nextUid := n' } := by
    show Intersection.after G cfg ord e = _
    have hc : Intersection.clear e = e := rfl
    unfold Intersection.after
    dsimp only
    rw [hc]
    have hn : e.nextUid = 0 := rfl
    rw [hn, h1]
    rfl
  have htr := hfree.after t e
  rw [hafter] at htr
  obtain ⟨⟨r2, n2⟩, h3, h4⟩ := bind_ok (show Intersection.after G cfg ord (e.translate t) = _ from htr)
  have h5 := entering_clock h1
  have h6 := entering_clock h3
  have hr2 : r2.vehicles = vs.map (Vehicle.translate t) := by
    have := congrArg (fun x : Env => x.road.vehicles) (Except.ok.inj h4)
    exact this
  have hne : ∃ v, v ∈ vs := by
    cases h2 with
    | unlucky hb =>
      exfalso
      have : e.road.rng.uniform01.1 ≤ 0 := by
        show (e.road.rng.uniform01).1 ≤ 0
        simp [he, Rng.uniform01]
      linarith
    | blocked a x w _ hw _ => cases hw
    | enters a b x y v _ _ _ _ => exact ⟨v, by simp⟩
  obtain ⟨v, hv⟩ := hne
  have h7 := (h5 v hv).resolve_left (by intro h; cases h)
  have h8 := (h6 (v.translate t) (by rw [hr2]; exact List.mem_map_of_mem hv)).resolve_left (by intro h; cases h)
  have h9 : (v.translate t).timer = v.timer := rfl
  rw [h9, h7] at h8
  have hs : ((v.translate t).pos.x + (v.translate t).pos.y) * Real.pi = (v.pos.x + v.pos.y) * Real.pi + 1 / 2 := by
    have := Real.pi_ne_zero
    simp [ht]
    field_simp
    ring
  rw [hs] at h8
  generalize (v.pos.x + v.pos.y) * Real.pi = x at h8
  unfold pyMod at h8
  rw [div_one, div_one] at h8
  have hz : (⌊x + 1 / 2⌋ : ℝ) - (⌊x⌋ : ℝ) = 1 / 2 := by linarith
  have hz2 : (2 * (⌊x + 1 / 2⌋ - ⌊x⌋) : ℤ) = 1 := by
    have : ((2 * (⌊x + 1 / 2⌋ - ⌊x⌋) : ℤ) : ℝ) = ((1 : ℤ) : ℝ) := by push_cast; linarith
    exact_mod_cast this
  omega

private theorem penalty_tr (t : Vec2) (acc : ℝ) (vs : List Vehicle) :
    (vs.map (Vehicle.translate t)).foldlM Merge.penalty acc = vs.foldlM Merge.penalty acc := by
  induction vs generalizing acc with
  | nil => rfl
  | cons v vs ih =>
    rw [List.map_cons, List.foldlM_cons, List.foldlM_cons]
    have h : Merge.penalty acc (v.translate t) = Merge.penalty acc v := rfl
    rw [h]
    cases Merge.penalty acc v with
    | error x => rfl
    | ok y => exact ih y

/-- **C120.** The merge environment is insensitive to displacements across the road. -/
theorem merge_positionFree (G : Globals) (d : ℝ) : PositionFreeAt ⟨0, d⟩ (Merge.cls G) where
  terminal e := by
    show Merge.terminal _ = Merge.terminal e
    unfold Merge.terminal
    rw [Env.vehicle_tr]
    cases e.vehicle with
    | error x => rfl
    | ok v => simp only [Except.map, bind, Except.bind, Vehicle.pos_tr, Vec2.add_x, add_zero]; rfl
  reward e a := by
    show Merge.reward G _ a = Merge.reward G e a
    unfold Merge.reward
    rw [Env.vehicle_tr]
    cases e.vehicle with
    | error x => rfl
    | ok v =>
      simp only [Except.map, bind, Except.bind, Env.road_tr, Road.vehicles_tr, penalty_tr]
      rfl
  cost e := rfl
  after e := rfl

private theorem summon_same (t : Vec2) (e : Env) {p q : List ℝ × List ℝ × List ℝ} (h : SameScore p q) :
    Summon.computeReward (e.translate t) p.2.1 p.2.2 = Summon.computeReward e q.2.1 q.2.2 := by
  unfold SameScore at h
  unfold Summon.computeReward
  rw [h, Env.vehicle_tr]
  cases Parking.computeReward q.2.1 q.2.2 with
  | error x => rfl
  | ok x => cases e.vehicle <;> rfl

/-- **C120.** The summon environment reads no absolute position. -/
theorem summon_positionFree (cfg : SummonConfig) : PositionFree (Summon.cls cfg) where
  terminal t e := by
    show Parking.terminalWith _ cfg.base _ = Parking.terminalWith _ cfg.base e
    unfold Parking.terminalWith
    rw [egos_tr]
    cases Parking.egos e with
    | error x => rfl
    | ok vs =>
      simp only [Except.map, bind, Except.bind]
      rcases observations_tr t cfg.base e with ⟨x, h1, h2⟩ | ⟨b, c, h1, h2, hr⟩
      · rw [h1, h2]
      · rw [h1, h2]
        have hsucc : Parking.allSuccessWith (fun a d => Summon.computeReward (e.translate t) a d) b =
            Parking.allSuccessWith (fun a d => Summon.computeReward e a d) c := by
          clear h1 h2
          induction hr with
          | nil => rfl
          | cons hr _ ih =>
            unfold Parking.allSuccessWith Parking.isSuccessWith
            dsimp only
            rw [summon_same t e hr, ih]
        dsimp only
        rw [hsucc, List.any_map]
        rfl
  reward t e a := by
    show Parking.rewardWith (fun a d => Summon.computeReward (e.translate t) a d) cfg.base _ =
      Parking.rewardWith (fun a d => Summon.computeReward e a d) cfg.base e
    unfold Parking.rewardWith
    rcases observations_tr t cfg.base e with ⟨x, h1, h2⟩ | ⟨b, c, h1, h2, hr⟩
    · rw [h1, h2]; rfl
    · rw [h1, h2]
      have hm : (b.mapM fun o => Summon.computeReward (e.translate t) o.2.1 o.2.2) = c.mapM fun o => Summon.computeReward e o.2.1 o.2.2 := by
        clear h1 h2
        induction hr with
        | nil => rfl
        | cons hr _ ih => simp only [List.mapM_cons, summon_same t e hr, ih]
      simp only [bind, Except.bind, hm]
  cost t e := rfl
  after t e := rfl

/-! ### Lane keeping -/

theorem vehicleState_tr (t : Vec2) (v : Vehicle) :
    LaneKeeping.vehicleState (v.translate t) = (LaneKeeping.vehicleState v).map (shiftState t) := by
  unfold LaneKeeping.vehicleState
  show (if v.kind = .bicycle then _ else _) = _
  by_cases h : v.kind = .bicycle
  · rw [if_pos h, if_pos h]; rfl
  · rw [if_neg h, if_neg h]; rfl

theorem lateralState (v : Vehicle) {x : List ℝ} (h : LaneKeeping.vehicleState v = .ok x) :
    LaneKeeping.lateralPart x = .ok [v.pos.y, v.heading, v.lateralSpeed, v.yawRate] := by
  unfold LaneKeeping.vehicleState at h
  split at h
  · cases h; rfl
  · cases h

theorem vehicleDerivative_tr (t : Vec2) (v : Vehicle) : LaneKeeping.vehicleDerivative (v.translate t) = LaneKeeping.vehicleDerivative v := rfl

theorem addNoise_first (a d x : ℝ) (xs : List ℝ) (rng : Rng) :
    LaneKeeping.addNoise a ((x + d) :: xs) rng = (shiftFirst d (LaneKeeping.addNoise a (x :: xs) rng).1, (LaneKeeping.addNoise a (x :: xs) rng).2) := by
  unfold LaneKeeping.addNoise shiftFirst
  dsimp only
  congr 2
  ring

theorem switchLane_tr (t : Vec2) (s : LaneKeeping.State) :
    LaneKeeping.switchLane (s.translate t) = (LaneKeeping.switchLane s).map (LaneKeeping.State.translate t) := by
  unfold LaneKeeping.switchLane
  obtain ⟨e, lane, lanes, tr⟩ := s
  cases lanes with
  | nil => rfl
  | cons nx rest =>
    cases lane with
    | none => rfl
    | some l =>
      simp only [LaneKeeping.State.translate, List.map_cons, Option.map_some, Env.vehicle_tr]
      cases e.vehicle with
      | error x => rfl
      | ok v =>
        simp only [Except.map, bind, Except.bind, Vehicle.pos_tr, Lane.onLane_tr]
        by_cases hb : l.onLane v.pos = true
        · rw [if_pos hb, if_pos hb]; rfl
        · rw [if_neg hb, if_neg hb]; rfl

theorem storeData_tr (t : Vec2) (s : LaneKeeping.State) :
    LaneKeeping.storeData (s.translate t) = (LaneKeeping.storeData s).map (LaneKeeping.State.translate t) := by
  unfold LaneKeeping.storeData
  show (do let v ← (s.env.translate t).vehicle; _) = _
  rw [Env.vehicle_tr]
  cases s.env.vehicle with
  | error x => rfl
  | ok v =>
    simp only [Except.map, bind, Except.bind, vehicleState_tr]
    cases LaneKeeping.vehicleState v with
    | error x => rfl
    | ok x => simp [Except.map, pure, Except.pure, LaneKeeping.State.translate]

theorem keepReward_tr (t : Vec2) (s : LaneKeeping.State) : LaneKeeping.reward (s.translate t) = LaneKeeping.reward s := by
  unfold LaneKeeping.reward
  obtain ⟨e, lane, lanes, tr⟩ := s
  cases lane with
  | none => rfl
  | some l =>
    simp only [LaneKeeping.State.translate, Option.map_some, Env.vehicle_tr]
    cases e.vehicle with
    | error x => rfl
    | ok v => simp only [Except.map, bind, Except.bind, Vehicle.pos_tr, Lane.localCoordinates_tr, Lane.width_tr]

theorem reference_tr (t : Vec2) (lane : Option Lane) (v : Vehicle) :
    LaneKeeping.reference (lane.map (Lane.translate t)) (v.translate t) =
      (LaneKeeping.reference lane v).map (if lane.isSome then shiftFirst t.y else id) := by
  unfold LaneKeeping.reference
  cases lane with
  | none => rfl
  | some l =>
    simp only [Option.map_some, vehicleState_tr, Option.isSome_some, if_true]
    cases h : LaneKeeping.vehicleState v with
    | error x => rfl
    | ok x =>
      have h' : LaneKeeping.vehicleState (v.translate t) = .ok (shiftState t x) := by rw [vehicleState_tr, h]; rfl
      simp only [Except.map, bind, Except.bind, lateralState v h, lateralState _ h', Vehicle.pos_tr, Lane.localCoordinates_tr, Lane.headingAt_tr]
      have e1 : ∀ a b c d : ℝ, pyIndex [a, b, c, d] 0 = .ok a := fun _ _ _ _ => rfl
      simp only [e1, pure, Except.pure, shiftFirst, Vec2.add_y]
      congr 2
      ring

theorem keepObserve_tr (t : Vec2) (cfg : LaneKeepingConfig) (s : LaneKeeping.State) (o : LaneKeeping.Obs) (rng : Rng) (hl : s.lane ≠ none)
    (hc : s.env.controlled ≠ []) (h : LaneKeeping.observe cfg s = .ok (o, rng)) :
    LaneKeeping.observe cfg (s.translate t) = .ok (o.shift t.y, rng) := by
  unfold LaneKeeping.observe at h ⊢
  obtain ⟨e, lane, lanes, tr⟩ := s
  obtain ⟨l, rfl⟩ : ∃ l, lane = some l := by
    cases lane with
    | none => exact absurd rfl hl
    | some l => exact ⟨l, rfl⟩
  dsimp only at h hc
  show (match e.controlled with | [] => _ | _ => _) = _
  cases hu : e.controlled with
  | nil => exact absurd hu hc
  | cons u us =>
    rw [hu] at h
    dsimp only at h ⊢
    obtain ⟨v, h1, h⟩ := bind_ok h
    obtain ⟨x, h2, h⟩ := bind_ok h
    obtain ⟨x', h3, h⟩ := bind_ok h
    obtain ⟨d, h4, h⟩ := bind_ok h
    obtain ⟨d', h5, h⟩ := bind_ok h
    obtain ⟨ref, h6, h⟩ := bind_ok h
    rw [lateralState v h2] at h3
    cases h3
    cases h
    have e1 : (e.translate t).vehicle = .ok (v.translate t) := by rw [Env.vehicle_tr, h1]; rfl
    have e2 : LaneKeeping.vehicleState (v.translate t) = .ok (shiftState t x) := by rw [vehicleState_tr, h2]; rfl
    have e6 : LaneKeeping.reference (some (l.translate t)) (v.translate t) = .ok (shiftFirst t.y ref) := by
      have := reference_tr t (some l) v
      rw [h6] at this
      exact this
    simp only [LaneKeeping.State.translate, Option.map_some, e1, bind, Except.bind, e2, lateralState _ e2, vehicleDerivative_tr, h4, h5, e6]
    have e3 := addNoise_first cfg.stateNoise t.y v.pos.y [v.heading, v.lateralSpeed, v.yawRate] e.road.rng
    have e4 : LaneKeeping.addNoise cfg.stateNoise [(v.translate t).pos.y, (v.translate t).heading, (v.translate t).lateralSpeed, (v.translate t).yawRate]
        (e.translate t).road.rng = _ := e3
    rw [e4]
    rfl

theorem keep_positionFree : PositionFree LaneKeeping.cls := ⟨fun _ _ => rfl, fun _ _ _ => rfl, fun _ _ => rfl, fun _ _ => rfl⟩

/-- **C120.** One step of the lane-keeping environment in the displaced world: the same reward, and the same observation but for the ordinates it
shows, increased by the displacement. -/
theorem moved_lane_keeping (t : Vec2) (G : Globals) (cfg : LaneKeepingConfig) (s s' : LaneKeeping.State) (a : AgentAction) (res : LaneKeeping.Result)
    (h : LaneKeeping.step G cfg s a = .ok (s', res)) :
    LaneKeeping.step G cfg (s.translate t) a = .ok (s'.translate t, ⟨res.obs.shift t.y, res.reward, res.terminal⟩) := by
  unfold LaneKeeping.step at h ⊢
  obtain ⟨s1, h1, h⟩ := bind_ok h
  obtain ⟨s2, h2, h⟩ := bind_ok h
  obtain ⟨r, h3, h⟩ := bind_ok h
  dsimp only at h
  obtain ⟨⟨o, rng⟩, h4, h⟩ := bind_ok h
  dsimp only at h
  obtain ⟨e, h5, h⟩ := bind_ok h
  obtain ⟨x, h6, h⟩ := bind_ok h
  cases h
  have hl : s2.lane ≠ none := by
    intro hn
    unfold LaneKeeping.reward at h6
    have : (LaneKeeping.withRng { s2 with env := { s2.env with road := r } } rng).lane = none := hn
    simp only [this] at h6
    cases h6
  have hc : s2.env.controlled ≠ [] := by
    obtain ⟨v, hv, h2⟩ := bind_ok h2
    obtain ⟨y, hy, h2⟩ := bind_ok h2
    cases h2
    intro hn
    unfold Env.vehicle at hv
    change s1.env.controlled = [] at hn
    rw [hn] at hv
    cases hv
  have e1 := switchLane_tr t s
  rw [h1] at e1
  have e2 := storeData_tr t s1
  rw [h2] at e2
  have e3 := Road.envAct_tr t G cfg.sim.action s2.env.controlled s2.env.road a
  rw [h3] at e3
  have e4 := keepObserve_tr t cfg { s2 with env := { s2.env with road := r } } o rng hl hc h4
  have e5 := Env.simulate_tr t (positionFree_at keep_positionFree t) G cfg.sim none
    (LaneKeeping.withRng { s2 with env := { s2.env with road := r } } rng).env
  rw [h5] at e5
  have e6 := keepReward_tr t { (LaneKeeping.withRng { s2 with env := { s2.env with road := r } } rng) with env := e }
  rw [h6] at e6
  rw [e1]
  simp only [Except.map, bind, Except.bind]
  rw [e2]
  simp only [Except.map]
  have e3' : (s2.translate t).env.road.envAct G cfg.sim.action (s2.translate t).env.controlled a = .ok (r.translate t) := e3
  rw [e3']
  dsimp only
  have e4' : LaneKeeping.observe cfg { (s2.translate t) with env := { (s2.translate t).env with road := r.translate t } } = .ok (o.shift t.y, rng) := e4
  rw [e4']
  dsimp only
  have e5' : Env.simulate G cfg.sim LaneKeeping.cls none (LaneKeeping.withRng { (s2.translate t) with env := { (s2.translate t).env with road := r.translate t } } rng).env =
      .ok (e.translate t) := e5
  rw [e5']
  dsimp only
  have e6' : LaneKeeping.reward { (LaneKeeping.withRng { (s2.translate t) with env := { (s2.translate t).env with road := r.translate t } } rng) with env := e.translate t } =
      .ok x := e6
  rw [e6']
  rfl

/-- **C120.** Along the direction of the road (`x`), nothing an agent of the lane-keeping environment receives depends on where the world is. -/
theorem moved_lane_keeping_along (d : ℝ) (G : Globals) (cfg : LaneKeepingConfig) (s s' : LaneKeeping.State) (a : AgentAction) (res : LaneKeeping.Result)
    (h : LaneKeeping.step G cfg s a = .ok (s', res)) :
    LaneKeeping.step G cfg (s.translate ⟨d, 0⟩) a = .ok (s'.translate ⟨d, 0⟩, res) := by
  rw [moved_lane_keeping ⟨d, 0⟩ G cfg s s' a res h]
  have hz : ∀ l : List ℝ, shiftFirst 0 l = l := fun l => by cases l <;> simp [shiftFirst]
  unfold LaneKeeping.Obs.shift
  simp only [hz]

/-- **C120.** A whole run of the lane-keeping environment in the displaced world. -/
theorem moved_keeping_run (t : Vec2) (G : Globals) (cfg : LaneKeepingConfig) (s s' : LaneKeeping.State) (as : List AgentAction)
    (rs : List LaneKeeping.Result) (h : KeepingRun G cfg s as rs s') :
    KeepingRun G cfg (s.translate t) as (rs.map fun r => ⟨r.obs.shift t.y, r.reward, r.terminal⟩) (s'.translate t) := by
  induction h with
  | start => exact .start
  | step _ hs ih =>
    rw [List.map_append]
    exact .step ih (moved_lane_keeping t G cfg _ _ _ _ hs)

/-- Non-vacuity: the default intersection can be reset and driven for three decisions; displaced along the diagonal it gives the same results. -/
example (ord : Graph.SetOrder) (rng : Rng) : ∃ G' e rs e', Intersection.reset {} {} ord rng = .ok (G', e) ∧ rs.length = 3 ∧
    Episode (Intersection.egoLadder G') ({} : IntersectionConfig).sim (Intersection.cls G' {} ord) e [.index 1, .index 2, .index 0] rs e' ∧
    Episode (Intersection.egoLadder G') ({} : IntersectionConfig).sim (Intersection.cls G' {} ord) (e.translate ⟨1000, -1000⟩)
      [.index 1, .index 2, .index 0] rs (e'.translate ⟨1000, -1000⟩) := by
  obtain ⟨G', e, _, rs, e', h1, _, h2, h3, _⟩ := inter_episode {} {} inter_default_ok.1 rfl (by norm_num) ord rng [.index 1, .index 2, .index 0] (by
    intro a ha
    simp only [List.mem_cons, List.not_mem_nil, or_false] at ha
    rcases ha with rfl | rfl | rfl <;> exact ⟨by norm_num, by norm_num [AgentType.spaceSize, AgentType.actions]⟩)
  exact ⟨G', e, rs, e', h1, h3, h2, moved_episode _ _ _ _ (intersection_positionFree G' {} ord _ ⟨0, by norm_num⟩) _ _ _ _ h2⟩

/-- Non-vacuity: the counter-example concerns the default configuration. -/
example (ord : Graph.SetOrder) : ¬ PositionFree (Intersection.cls {} {} ord) := intersection_not_positionFree {} {} rfl (by norm_num) ord

/-- Non-vacuity: two decisions of the default lane-keeping environment, and the same a kilometre further. -/
example (G : Globals) (rng : Rng) : ∃ s rs s', rs.length = 2 ∧ KeepingRun G {} s ([0, -1].map fun x => .vector [x]) rs s' ∧
    KeepingRun G {} (s.translate ⟨1000, 7⟩) ([0, -1].map fun x => .vector [x]) (rs.map fun r => ⟨r.obs.shift 7, r.reward, r.terminal⟩)
      (s'.translate ⟨1000, 7⟩) := by
  obtain ⟨c, hc, _⟩ := keeping_default_ok
  obtain ⟨s0, h0, h1, _⟩ := keeping_make G {} c hc rng
  obtain ⟨s, o, rs, s', e1, e2, e3, _⟩ := keeping_episode G {} c hc s0 h1 [0, -1]
  exact ⟨s, rs, s', e3, e2, moved_keeping_run ⟨1000, 7⟩ G {} s s' _ rs e2⟩

/-- Non-vacuity: two decisions of the default summon environment, and the same a kilometre further. -/
example (rng : Rng) : ∃ e rs e', Summon.reset {} {} rng = .ok e ∧ rs.length = 2 ∧
    Episode {} ({} : SummonConfig).base.sim (Summon.cls {}) e [.vector [1, 0], .vector [0.3, -0.2]] rs e' ∧
    Episode {} ({} : SummonConfig).base.sim (Summon.cls {}) (e.translate ⟨1000, 7⟩) [.vector [1, 0], .vector [0.3, -0.2]] rs (e'.translate ⟨1000, 7⟩) := by
  obtain ⟨e, _, rs, e', h1, h2, h3, _⟩ := summon_episode {} {} summon_default_ok (by norm_num) rng [.vector [1, 0], .vector [0.3, -0.2]] (by
    intro a ha
    simp only [List.mem_cons, List.not_mem_nil, or_false] at ha
    rcases ha with rfl | rfl <;> rfl)
  exact ⟨e, rs, e', h1, h3, h2, moved_episode _ _ _ _ (positionFree_at (summon_positionFree {}) _) _ _ _ _ h2⟩

end HighwayEnv.Props
