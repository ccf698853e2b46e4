import Mathlib.Analysis.SpecialFunctions.Trigonometric.Bounds
import Verif.Spec.Along
import Verif.Lemmas.Lane
import Verif.Lemmas.Straight
import Verif.Props.Network

/-!
# C111: positions along a route; straight roads at any angle; ellipses
-/

noncomputable section
open Classical
namespace HighwayEnv.Props
open HighwayEnv Spec Graph

namespace Along

/-- The centre line of a chain of lanes, as a function. -/
def path : List Lane → ℝ → ℝ → Vec2 × ℝ
  | [], _, _ => (0, 0)
  | [l], x, lat => (l.position x lat, l.headingAt x)
  | l :: l' :: rest, x, lat => if x > l.length then path (l' :: rest) (x - l.length) lat else (l.position x lat, l.headingAt x)

theorem route_path {g : Graph} {route : List RouteStep} {lanes : List Lane} (h : List.Forall₂ (fun s l => g.getLaneStep s = .ok l) route lanes)
    (hne : route ≠ []) (x lat : ℝ) : g.positionHeadingAlongRoute route x lat = .ok (path lanes x lat) := by
  induction h generalizing x with
  | nil => exact absurd rfl hne
  | @cons s l rest ls hl hrest ih =>
    cases hrest with
    | nil =>
      unfold positionHeadingAlongRoute
      simp only [hl, bind, Except.bind]
      rfl
    | @cons t l' rest ls ht hrest =>
      unfold positionHeadingAlongRoute
      simp only [hl, bind, Except.bind]
      unfold path
      split
      · exact ih (by simp) _
      · rfl

theorem covered_succ (l : Lane) (ls : List Lane) (j : ℕ) : covered (l :: ls) (j + 1) = l.length + covered ls j := by
  simp [covered]

theorem path_at {lanes : List Lane} {x : ℝ} {j : ℕ} (h : AlongAt lanes x j) (lat : ℝ) {l : Lane} (hl : lanes[j]? = some l) :
    path lanes x lat = (l.position (x - covered lanes j) lat, l.headingAt (x - covered lanes j)) := by
  induction lanes generalizing x j with
  | nil => simp at hl
  | cons a ls ih =>
    obtain ⟨h1, h2, h3⟩ := h
    cases j with
    | zero =>
      simp only [List.getElem?_cons_zero, Option.some.injEq] at hl
      subst hl
      have e : covered (a :: ls) 0 = 0 := by simp [covered]
      rw [e, sub_zero]
      cases ls with
      | nil => rfl
      | cons b ls =>
        unfold path
        rcases h3 with h3 | h3
        · simp at h3
        · rw [if_neg]
          rw [covered_succ] at h3
          simp only [covered, List.take_zero, List.map_nil, List.sum_nil, add_zero] at h3
          exact not_lt.2 h3
    | succ j =>
      simp only [List.getElem?_cons_succ] at hl
      cases ls with
      | nil => simp at hl
      | cons b ls =>
        unfold path
        have h0 := h2 0 (by omega)
        rw [covered_succ] at h0
        simp only [covered, List.take_zero, List.map_nil, List.sum_nil, add_zero] at h0
        rw [if_pos h0, covered_succ]
        have := ih (x := x - a.length) (j := j) ⟨by simpa using h1, fun i hi => ?_, ?_⟩ hl
        · rw [this]
          have e : x - a.length - covered (b :: ls) j = x - (a.length + covered (b :: ls) j) := by ring
          rw [e]
        · have := h2 (i + 1) (by omega)
          rw [covered_succ] at this
          linarith
        · rcases h3 with h3 | h3
          · left; simpa using h3
          · right
            rw [covered_succ] at h3
            linarith

theorem along_exists {lanes : List Lane} (hne : lanes ≠ []) (x : ℝ) : ∃ j, AlongAt lanes x j := by
  have hlast : ∃ j, j < lanes.length ∧ (j + 1 = lanes.length ∨ x ≤ covered lanes (j + 1)) :=
    ⟨lanes.length - 1, by have := List.length_pos_iff.2 hne; omega, .inl (by have := List.length_pos_iff.2 hne; omega)⟩
  obtain ⟨h1, h2⟩ := Nat.find_spec hlast
  refine ⟨Nat.find hlast, h1, fun i hi => ?_, h2⟩
  have := Nat.find_min hlast hi
  push Not at this
  exact (this (by omega)).2

theorem dir_lipschitz (a b : ℝ) : (Vec2.dir a - Vec2.dir b).norm ≤ |a - b| := by
  refine Vec2.norm_le_of_sq (abs_nonneg _) ?_
  rw [sq_abs]
  simp only [Vec2.sub_x, Vec2.sub_y, Vec2.dir]
  have h := Real.one_sub_sq_div_two_le_cos (x := a - b)
  rw [Real.cos_sub] at h
  nlinarith [Real.sin_sq_add_cos_sq a, Real.sin_sq_add_cos_sq b]

theorem sin_lipschitz (a b : ℝ) : |Real.sin a - Real.sin b| ≤ |a - b| := by
  have h := dir_lipschitz a b
  refine le_trans ?_ h
  have := Vec2.norm_sq (Vec2.dir a - Vec2.dir b)
  simp only [Vec2.sub_x, Vec2.sub_y, Vec2.dir] at this
  refine abs_le_of_sq_le_sq ?_ (Vec2.norm_nonneg _)
  simp only [Vec2.dir]
  nlinarith [sq_nonneg (Real.cos a - Real.cos b)]

theorem lane_lipschitz {l : Lane} (hl : ProperLane l) (s s' : ℝ) : (l.position s' 0 - l.position s 0).norm ≤ stretch l * |s' - s| := by
  unfold ProperLane at hl
  unfold stretch Lane.position
  rcases hsh : l.shape with ⟨a, b⟩ | ⟨a, b, amp, w, ph⟩ | ⟨c, r, p0, p1, cw⟩ <;> rw [hsh] at hl <;> dsimp only at hl ⊢
  · have hd := Lane.straightDir_sq hl
    refine Vec2.norm_le_of_sq (by positivity) ?_
    simp only [Lane.straightPosition, Vec2.sub_x, Vec2.sub_y]
    rw [one_mul, sq_abs]
    refine le_of_eq ?_
    linear_combination (s' - s) ^ 2 * hd
  · have hd := Lane.straightDir_sq hl
    have h1 : |amp * (Real.sin (w * s' + ph) - Real.sin (w * s + ph))| ≤ |amp * w| * |s' - s| := by
      rw [abs_mul, abs_mul, mul_assoc]
      refine mul_le_mul_of_nonneg_left ((sin_lipschitz _ _).trans (le_of_eq ?_)) (abs_nonneg _)
      rw [← abs_mul]; congr 1; ring
    set d := amp * (Real.sin (w * s' + ph) - Real.sin (w * s + ph)) with hdd
    refine Vec2.norm_le_of_sq (by positivity) ?_
    simp only [Lane.straightPosition, Vec2.sub_x, Vec2.sub_y]
    have e : (a.x + s' * (Lane.straightDir a b).x + (0 + amp * Real.sin (w * s' + ph)) * -(Lane.straightDir a b).y -
        (a.x + s * (Lane.straightDir a b).x + (0 + amp * Real.sin (w * s + ph)) * -(Lane.straightDir a b).y)) ^ 2 +
        (a.y + s' * (Lane.straightDir a b).y + (0 + amp * Real.sin (w * s' + ph)) * (Lane.straightDir a b).x -
        (a.y + s * (Lane.straightDir a b).y + (0 + amp * Real.sin (w * s + ph)) * (Lane.straightDir a b).x)) ^ 2 = |s' - s| ^ 2 + |d| ^ 2 := by
      rw [sq_abs, sq_abs, hdd]
      linear_combination ((s' - s) ^ 2 + (amp * (Real.sin (w * s' + ph) - Real.sin (w * s + ph))) ^ 2) * hd
    rw [e]
    nlinarith [abs_nonneg d, abs_nonneg (s' - s), abs_nonneg (amp * w), mul_nonneg (abs_nonneg (amp * w)) (abs_nonneg (s' - s))]
  · have hc : |Lane.circDir cw| = 1 := by cases cw <;> simp [Lane.circDir]
    have e : c + (r - 0 * Lane.circDir cw) • Vec2.dir (Lane.circDir cw * s' / r + p0) - (c + (r - 0 * Lane.circDir cw) • Vec2.dir (Lane.circDir cw * s / r + p0)) =
        r • (Vec2.dir (Lane.circDir cw * s' / r + p0) - Vec2.dir (Lane.circDir cw * s / r + p0)) := by
      ext <;> simp <;> ring
    rw [e, Vec2.norm_smul, abs_of_pos hl, one_mul]
    have h := dir_lipschitz (Lane.circDir cw * s' / r + p0) (Lane.circDir cw * s / r + p0)
    have e2 : Lane.circDir cw * s' / r + p0 - (Lane.circDir cw * s / r + p0) = Lane.circDir cw * ((s' - s) / r) := by ring
    rw [e2, abs_mul, hc, one_mul, abs_div, abs_of_pos hl] at h
    calc r * _ ≤ r * (|s' - s| / r) := mul_le_mul_of_nonneg_left h hl.le
      _ = |s' - s| := by field_simp

theorem path_zero {l : Lane} {ls : List Lane} (h : 0 ≤ l.length) : (path (l :: ls) 0 0).1 = l.position 0 0 := by
  cases ls with
  | nil => rfl
  | cons b ls => unfold path; rw [if_neg (not_lt.2 h)]

theorem path_lipschitz {K : ℝ} {lanes : List Lane} (hp : ∀ l ∈ lanes, ProperLane l ∧ 0 ≤ l.length ∧ stretch l ≤ K) (hlink : Linked lanes) (x y : ℝ) (hxy : x ≤ y) :
    lanes ≠ [] → ((path lanes y 0).1 - (path lanes x 0).1).norm ≤ K * (y - x) := by
  induction lanes generalizing x y with
  | nil => intro h; exact absurd rfl h
  | cons a ls ih =>
    intro _
    obtain ⟨p1, p2, p3⟩ := hp a (by simp)
    have hlane : ∀ s s', s ≤ s' → (a.position s' 0 - a.position s 0).norm ≤ K * (s' - s) := by
      intro s s' hs
      refine (lane_lipschitz p1 s s').trans ?_
      rw [abs_of_nonneg (by linarith)]
      exact mul_le_mul_of_nonneg_right p3 (by linarith)
    cases ls with
    | nil => exact hlane x y hxy
    | cons b ls =>
      have ih' := fun x y h => ih (fun l hl => hp l (by simp [hl])) (fun j u w hu hw => hlink (j + 1) u w (by simpa using hu) (by simpa using hw)) x y h (by simp)
      have hj := hlink 0 a b rfl rfl
      unfold path
      by_cases hy : y > a.length
      · rw [if_pos hy]
        by_cases hx : x > a.length
        · rw [if_pos hx]
          have := ih' (x - a.length) (y - a.length) (by linarith)
          have e : y - a.length - (x - a.length) = y - x := by ring
          rwa [e] at this
        · rw [if_neg hx]
          push Not at hx
          have h1 := ih' 0 (y - a.length) (by linarith)
          rw [path_zero (hp b (by simp)).2.1, ← hj] at h1
          have h2 := hlane x a.length hx
          set u := (path (b :: ls) (y - a.length) 0).1
          have e : u - a.position x 0 = (u - a.position a.length 0) + (a.position a.length 0 - a.position x 0) := by ext <;> simp
          dsimp only
          rw [e]
          refine (Vec2.norm_add_le _ _).trans ?_
          linarith
      · rw [if_neg hy, if_neg (by push Not at hy ⊢; linarith)]
        exact hlane x y hxy

end Along

/-! ## C111 -/

/-- The position "`lon` metres along the route, `lat` metres aside" lies on the lane of the route that contains that distance: lanes already covered are subtracted,
the last lane is prolonged.  There is always exactly one such lane. -/
theorem position_along_route (g : Graph) (route : List RouteStep) (lanes : List Lane)
    (h : List.Forall₂ (fun s l => g.getLaneStep s = .ok l) route lanes) (hne : route ≠ []) (lon lat : ℝ) :
    (∃! j, AlongAt lanes lon j) ∧
    ∀ j l, AlongAt lanes lon j → lanes[j]? = some l →
      g.positionHeadingAlongRoute route lon lat = .ok (l.position (lon - covered lanes j) lat, l.headingAt (lon - covered lanes j)) := by
  have hne' : lanes ≠ [] := by
    rintro rfl
    exact hne (List.forall₂_nil_right_iff.1 h)
  refine ⟨?_, fun j l hj hl => by rw [Along.route_path h hne, Along.path_at hj lat hl]⟩
  obtain ⟨j, hj⟩ := Along.along_exists hne' lon
  refine ⟨j, hj, fun k hk => ?_⟩
  have hno : ∀ a b, AlongAt lanes lon a → AlongAt lanes lon b → ¬ a < b := by
    intro a b ha hb hab
    have h1 := hb.2.1 a hab
    rcases ha.2.2 with h2 | h2
    · have := hb.1; omega
    · linarith
  have := hno j k hj hk
  have := hno k j hk hj
  omega

/-- Along a route whose lanes follow each other, the centre position is a continuous path: it moves at most `K` metres per metre, where `K` is 1 for straight and circular lanes
and `1 + |amplitude * pulsation|` for sine lanes. -/
theorem route_continuous (g : Graph) (route : List RouteStep) (lanes : List Lane)
    (h : List.Forall₂ (fun s l => g.getLaneStep s = .ok l) route lanes) (hlink : Linked lanes) (K : ℝ)
    (hp : ∀ l ∈ lanes, ProperLane l ∧ 0 ≤ l.length ∧ stretch l ≤ K) (lon lon' : ℝ) (p p' : Vec2 × ℝ)
    (h1 : g.positionHeadingAlongRoute route lon 0 = .ok p) (h2 : g.positionHeadingAlongRoute route lon' 0 = .ok p') :
    (p'.1 - p.1).norm ≤ K * |lon' - lon| := by
  have hne : route ≠ [] := by rintro rfl; unfold positionHeadingAlongRoute at h1; cases h1
  have hne' : lanes ≠ [] := by
    rintro rfl
    exact hne (List.forall₂_nil_right_iff.1 h)
  rw [Along.route_path h hne] at h1 h2
  cases h1; cases h2
  rcases le_total lon lon' with hle | hle
  · rw [abs_of_nonneg (by linarith)]
    exact Along.path_lipschitz hp hlink _ _ hle hne'
  · rw [abs_of_nonpos (by linarith), neg_sub, Vec2.norm_sub_comm]
    exact Along.path_lipschitz hp hlink _ _ hle hne'

/-- Constant-speed predictions: one predicted position per requested time, and between two of them the vehicle covers at most its speed times the elapsed time
(on straight and circular lanes; `K` times that on sine lanes). -/
theorem prediction_at_constant_speed (g : Graph) (v : Vehicle) (times : List ℝ) (ps : List (Vec2 × ℝ)) (h : v.predictConstantSpeed g times = .ok ps)
    (s : RouteStep) (rest : List RouteStep) (hroute : v.route = some (s :: rest)) (lanes : List Lane)
    (hlanes : List.Forall₂ (fun s l => g.getLaneStep s = .ok l) (s :: rest) lanes) :
    ps.length = times.length ∧
    (∀ (n : ℕ) (t : ℝ) (p : Vec2 × ℝ), times[n]? = some t → ps[n]? = some p → ∀ j l, AlongAt lanes ((v.lane.localCoordinates v.pos).1 + v.speed * t) j → lanes[j]? = some l →
      p.1 = l.position ((v.lane.localCoordinates v.pos).1 + v.speed * t - covered lanes j) 0) ∧
    (Linked lanes → ∀ K, (∀ l ∈ lanes, ProperLane l ∧ 0 ≤ l.length ∧ stretch l ≤ K) →
      ∀ (m n : ℕ) (t t' : ℝ) (p p' : Vec2 × ℝ), times[m]? = some t → times[n]? = some t' → ps[m]? = some p → ps[n]? = some p' →
        (p'.1 - p.1).norm ≤ K * (|v.speed| * |t' - t|)) := by
  unfold Vehicle.predictConstantSpeed at h
  split at h
  · rw [hroute] at h
    dsimp only at h
    have hp := mapM_pointwise h
    have hget : ∀ (n : ℕ) (t : ℝ) (p : Vec2 × ℝ), times[n]? = some t → ps[n]? = some p →
        g.positionHeadingAlongRoute (s :: rest) ((v.lane.localCoordinates v.pos).1 + v.speed * t) 0 = .ok p := by
      intro n t p ht hpn
      obtain ⟨q, hq, hok⟩ := hp.2 n t ht
      rw [hpn] at hq; cases hq
      exact hok
    refine ⟨hp.1, fun n t p ht hpn j l hj hl => ?_, fun hlink K hK m n t t' p p' ht ht' hpm hpn => ?_⟩
    · have := (position_along_route g _ lanes hlanes (by simp) _ 0).2 j l hj hl
      rw [hget n t p ht hpn] at this
      exact congrArg Prod.fst (Except.ok.inj this)
    · have := route_continuous g _ lanes hlanes hlink K hK _ _ p p' (hget m t p ht hpm) (hget n t' p' ht' hpn)
      have e : (v.lane.localCoordinates v.pos).1 + v.speed * t' - ((v.lane.localCoordinates v.pos).1 + v.speed * t) = v.speed * (t' - t) := by ring
      rwa [e, abs_mul] at this
  · cases h

/-- A straight road built at an angle: `n` lanes of the given length from "0" to "1", all heading to `-angle` (positive angles turn towards negative y), each 4 m aside of the previous one,
the first one starting at the origin. -/
theorem straight_road_at_angle (n : ℕ) (hn : 0 < n) (len angle : ℝ) (hl : 0 < len) :
    ∃ lanes : List Lane, lanes.length = n ∧ straightRoadNetwork n len angle = [("0", [("1", lanes)])] ∧
    ∀ (k : ℕ) (l : Lane), lanes[k]? = some l → l.length = len ∧ l.width = 4 ∧ l.forbidden = false ∧
      (∀ s r, l.position s r = s • Vec2.dir (-angle) + (4 * k + r) • (⟨Real.sin angle, Real.cos angle⟩ : Vec2)) ∧
      ∀ s r, l.localCoordinates (l.position s r) = (s, r) := by
  let mk : ℕ → Lane := fun k =>
    { shape := .straight ⟨Real.cos angle * 0 + Real.sin angle * (k * Lane.DEFAULT_WIDTH), -Real.sin angle * 0 + Real.cos angle * (k * Lane.DEFAULT_WIDTH)⟩
        ⟨Real.cos angle * len + Real.sin angle * (k * Lane.DEFAULT_WIDTH), -Real.sin angle * len + Real.cos angle * (k * Lane.DEFAULT_WIDTH)⟩ }
  have hnet : straightRoadNetwork n len angle = [("0", [("1", (List.range n).map mk)])] := by
    obtain ⟨m, rfl⟩ : ∃ m, n = m + 1 := ⟨n - 1, by omega⟩
    clear hn
    induction m with
    | zero => simp [straightRoadNetwork, mk, addLane, Dict.get?, Dict.setItem]
    | succ m ih =>
      unfold straightRoadNetwork at ih ⊢
      rw [List.range_succ, List.foldl_append, ih]
      simp only [List.foldl_cons, List.foldl_nil]
      rw [List.map_append]
      simp [mk, addLane, Dict.get?, Dict.setItem]
  refine ⟨_, by simp, hnet, fun k l hk => ?_⟩
  obtain ⟨hkn, rfl⟩ : k < n ∧ l = mk k := by
    have hlt := (List.getElem?_eq_some_iff.1 hk).1
    rw [List.length_map, List.length_range] at hlt
    simp [hlt] at hk
    exact ⟨hlt, hk.symm⟩
  have hsc := Real.sin_sq_add_cos_sq angle
  have hnorm : ((⟨Real.cos angle * len + Real.sin angle * (k * Lane.DEFAULT_WIDTH), -Real.sin angle * len + Real.cos angle * (k * Lane.DEFAULT_WIDTH)⟩ : Vec2) -
      ⟨Real.cos angle * 0 + Real.sin angle * (k * Lane.DEFAULT_WIDTH), -Real.sin angle * 0 + Real.cos angle * (k * Lane.DEFAULT_WIDTH)⟩).norm = len := by
    unfold Vec2.norm
    rw [show len = √(len ^ 2) from (Real.sqrt_sq hl.le).symm]
    congr 1
    simp only [Vec2.sub_x, Vec2.sub_y]
    rw [Real.sqrt_sq hl.le]
    linear_combination len ^ 2 * hsc
  have hne : (⟨Real.cos angle * 0 + Real.sin angle * (k * Lane.DEFAULT_WIDTH), -Real.sin angle * 0 + Real.cos angle * (k * Lane.DEFAULT_WIDTH)⟩ : Vec2) ≠
      ⟨Real.cos angle * len + Real.sin angle * (k * Lane.DEFAULT_WIDTH), -Real.sin angle * len + Real.cos angle * (k * Lane.DEFAULT_WIDTH)⟩ := by
    intro e
    rw [← e] at hnorm
    simp [Vec2.norm] at hnorm
    exact hl.ne hnorm
  refine ⟨hnorm, rfl, rfl, fun s r => ?_, fun s r => Lane.straight_local_pos hne s r⟩
  change Lane.straightPosition _ _ s r = _
  unfold Lane.straightPosition Lane.straightDir
  rw [hnorm]
  simp only [Lane.DEFAULT_WIDTH]
  ext
  · simp [Vec2.dir]; field_simp; ring
  · simp [Vec2.dir]; field_simp; ring

/-- The ellipse test: the inside (boundary excluded) of the ellipse whose main axis is at the angle *opposite* to the one given, with the given lengths as semi-axes. -/
theorem point_in_ellipse (p c : Vec2) (a l w : ℝ) : pointInEllipse p c a l w = true ↔ p ∈ ellipseSet c l w (-a) := by
  unfold pointInEllipse ellipseSet Vec2.rot
  simp only [decide_eq_true_eq, Set.mem_ofPred_eq, Vec2.sub_x, Vec2.sub_y, Real.cos_neg, Real.sin_neg]
  have hsc := Real.sin_sq_add_cos_sq a
  constructor
  · intro h
    refine ⟨_, _, h, ?_⟩
    ext
    · simp [Vec2.dir]; linear_combination (c.x - p.x) * hsc
    · simp [Vec2.dir]; linear_combination (c.y - p.y) * hsc
  · rintro ⟨s, t, h, rfl⟩
    convert h using 3
    · congr 1
      simp [Vec2.dir]; linear_combination s * hsc
    · congr 1
      simp [Vec2.dir]; linear_combination t * hsc

/-- Without a plan for the next road (no route, a route that does not continue from here, or one whose next node has an empty name) the next lane is drawn as without a route. -/
theorem nextLane_unplanned (g : Graph) (cur : LaneIndex) (route : Option (List RouteStep)) (p : Vec2) (rng : Rng)
    (h : ∀ s, plannedNext cur route = some s → s.src = cur.dst → s.dst = "") :
    (g.nextLane cur route p rng).map (fun r => (r.1, r.2.2)) = (g.nextLane cur none p rng).map (fun r => (r.1, r.2.2)) := by
  have e : strTruthy (nextFromRoute cur route).2 = false := by
    rw [nextFromRoute_snd]
    cases hp : plannedNext cur route with
    | none => rfl
    | some s =>
      by_cases hs : s.src = cur.dst
      · simp [hs, h s hp hs, strTruthy]
      · simp [hs, strTruthy]
  unfold nextLane
  dsimp only
  rw [e, if_neg (by simp), if_neg (by simp [nextFromRoute, strTruthy])]
  cases Dict.get? g cur.dst with
  | none => rfl
  | some d =>
    dsimp only
    cases rng.randint d.length with
    | error e => rfl
    | ok kr =>
      obtain ⟨k, r⟩ := kr
      simp only [bind, Except.bind]
      cases g.nextLaneOn cur ((Dict.keys d).getD k "") p with
      | error e => rfl
      | ok i => rfl

/-- The connection test ignores a first route element that is the current road, without spending depth on it. -/
theorem isConnectedRoad_skips_current (g : Graph) (a b s : RouteStep) (rest : List RouteStep) (d : ℕ) (hs : s.src = a.src ∧ s.dst = a.dst) (same : Bool) :
    g.isConnectedRoad a b (some (s :: rest)) same (d + 1) = g.isConnectedRoad a b (some rest) same (d + 1) := by
  by_cases h : (isSameRoad b a same || isLeadingToRoad b a same) = true
  · rw [isConnectedRoad.eq_def, if_pos h, isConnectedRoad.eq_def, if_pos h]
  · conv_lhs => rw [isConnectedRoad.eq_def, if_neg h]
    dsimp only
    rw [if_pos hs]

/-! ## The hypotheses are met -/

namespace Along

/-- 10 m straight ahead, then a quarter of a circle. -/
def l1 : Lane := { shape := .straight ⟨0, 0⟩ ⟨10, 0⟩ }
def l2 : Lane := { shape := .circular ⟨10, 5⟩ 5 (-(Real.pi / 2)) 0 true }
def net : Graph := [("a", [("b", [l1])]), ("b", [("c", [l2])])]
def route : List RouteStep := [⟨"a", "b", some 0⟩, ⟨"b", "c", some 0⟩]

theorem l1_length : l1.length = 10 := by
  have : √((10 : ℝ) ^ 2) = 10 := by rw [Real.sqrt_sq (by norm_num)]
  simp [l1, Lane.length, Vec2.norm, this]

theorem l1_position (s r : ℝ) : l1.position s r = ⟨s, r⟩ := by
  have : √((10 : ℝ) ^ 2) = 10 := by rw [Real.sqrt_sq (by norm_num)]
  simp [l1, Lane.position, Lane.straightPosition, Lane.straightDir, Vec2.norm, this]

theorem l2_length : l2.length = 5 * (Real.pi / 2) := by simp [l2, Lane.length, Lane.circDir]

theorem route_lanes : List.Forall₂ (fun s l => net.getLaneStep s = .ok l) route [l1, l2] := by
  refine .cons ?_ (.cons ?_ .nil)
  · simp [net, route, Graph.getLaneStep, Graph.lanesOf, Dict.getItem, Dict.get?, bind, Except.bind, pyIndex]
  · simp [net, route, Graph.getLaneStep, Graph.lanesOf, Dict.getItem, Dict.get?, bind, Except.bind, pyIndex]

theorem route_linked : Linked [l1, l2] := by
  intro j a b ha hb
  obtain rfl : j = 0 := by
    have := (List.getElem?_eq_some_iff.1 hb).1
    simpa using this
  cases ha; cases hb
  rw [l1_length, l1_position]
  simp [l2, Lane.position, Lane.circDir, Vec2.dir]
  ext <;> simp

theorem route_proper : ∀ l ∈ [l1, l2], ProperLane l ∧ 0 ≤ l.length ∧ stretch l ≤ 1 := by
  intro l hl
  simp only [List.mem_cons, List.not_mem_nil, or_false] at hl
  rcases hl with rfl | rfl
  · exact ⟨by simp [ProperLane, l1], by rw [l1_length]; norm_num, by simp [stretch, l1]⟩
  · exact ⟨by simp [ProperLane, l2], by rw [l2_length]; positivity, by simp [stretch, l2]⟩

end Along

/-- 12 m along the route: 2 m on the second lane. -/
example : Along.net.positionHeadingAlongRoute Along.route 12 0 = .ok (Along.l2.position 2 0, Along.l2.headingAt 2) := by
  have h := (position_along_route Along.net Along.route _ Along.route_lanes (by simp [Along.route]) 12 0).2 1 Along.l2 ⟨by simp, fun i hi => ?_, .inl rfl⟩ rfl
  · have e : covered [Along.l1, Along.l2] 1 = 10 := by simp [covered, Along.l1_length]
    rw [e] at h
    rw [h]; norm_num
  · obtain rfl : i = 0 := by omega
    norm_num [covered, Along.l1_length]

/-- The path of the example is continuous across the junction. -/
example (x y : ℝ) (p q : Vec2 × ℝ) (h1 : Along.net.positionHeadingAlongRoute Along.route x 0 = .ok p)
    (h2 : Along.net.positionHeadingAlongRoute Along.route y 0 = .ok q) : (q.1 - p.1).norm ≤ |y - x| := by
  have := route_continuous _ _ _ Along.route_lanes Along.route_linked 1 Along.route_proper x y p q h1 h2
  rwa [one_mul] at this

/-- A car at 10 m/s on the first lane of the example: its predicted positions. -/
example (times : List ℝ) : ∃ ps, ({ uid := 0, kind := .idm, pos := ⟨4, 0⟩, heading := 0, speed := 10, laneIndex := ⟨"a", "b", 0⟩, lane := Along.l1
                                    targetLane := ⟨"a", "b", 0⟩, targetSpeed := 10, route := some Along.route } : Vehicle).predictConstantSpeed Along.net times = .ok ps ∧
    ps.length = times.length := by
  unfold Vehicle.predictConstantSpeed
  rw [if_pos (by rfl)]
  dsimp only [Along.route]
  obtain ⟨ps, hps⟩ := mapM_ok (f := fun t => Along.net.positionHeadingAlongRoute Along.route ((Along.l1.localCoordinates ⟨4, 0⟩).1 + 10 * t) 0) times
    (fun t _ => ⟨_, Along.route_path Along.route_lanes (by simp [Along.route]) _ _⟩)
  exact ⟨ps, hps, (mapM_pointwise hps).1⟩

example : ∃ lanes : List Lane, lanes.length = 3 ∧ straightRoadNetwork 3 100 (Real.pi / 4) = [("0", [("1", lanes)])] := by
  obtain ⟨lanes, h1, h2, _⟩ := straight_road_at_angle 3 (by norm_num) 100 (Real.pi / 4) (by norm_num)
  exact ⟨lanes, h1, h2⟩

/-- A long ellipse at a quarter turn: since the angle is taken the other way, both ends of its axis are accepted and the sides are not. -/
example : pointInEllipse ⟨0, 3⟩ 0 (Real.pi / 2) 4 1 = true ∧ pointInEllipse ⟨3, 0⟩ 0 (Real.pi / 2) 4 1 = false := by
  constructor
  · norm_num [pointInEllipse, Vec2.rot]
  · norm_num [pointInEllipse, Vec2.rot]

end HighwayEnv.Props
