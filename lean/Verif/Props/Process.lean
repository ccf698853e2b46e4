import Verif.Spec.Process
import Verif.Props.Highway
import Verif.Props.Roundabout
import Verif.Props.Intersection

/-!
# C62: the class attributes after any sequence of resets
-/

noncomputable section
open Classical
namespace HighwayEnv.Props
open HighwayEnv Spec

namespace Process

theorem inherits_iff (a b : VKind) : Intersection.inherits a b = true ↔ IsSubclass a b := by
  unfold IsSubclass
  cases a <;> cases b <;> simp [Intersection.inherits]

theorem round {G G1 : Globals} {cfg : RoundaboutConfig} {ord : Graph.SetOrder} {rng : Rng} {e : Env} (h : Roundabout.reset G cfg ord rng = .ok (G1, e)) :
    G1 = Roundabout.ladder G := by
  unfold Roundabout.reset at h
  obtain ⟨_, _, h⟩ := bind_ok h
  obtain ⟨⟨G2, r⟩, h2, h⟩ := bind_ok h
  have e1 : G2 = G1 := congrArg Prod.fst (Except.ok.inj h)
  subst e1
  unfold Roundabout.makeVehicles at h2
  obtain ⟨_, _, h2⟩ := bind_ok h2
  obtain ⟨_, _, h2⟩ := bind_ok h2
  obtain ⟨_, _, h2⟩ := bind_ok h2
  obtain ⟨_, _, h2⟩ := bind_ok h2
  obtain ⟨_, _, h2⟩ := bind_ok h2
  exact (congrArg Prod.fst (Except.ok.inj h2)).symm

theorem inter {G G1 : Globals} {cfg : IntersectionConfig} {ord : Graph.SetOrder} {rng : Rng} {e : Env} (h : Intersection.reset G cfg ord rng = .ok (G1, e)) :
    G1 = Intersection.setTraffic cfg.otherVehiclesType G := by
  unfold Intersection.reset at h
  obtain ⟨_, _, h⟩ := bind_ok h
  obtain ⟨⟨G2, r⟩, h2, h⟩ := bind_ok h
  have e1 : G2 = G1 := congrArg Prod.fst (Except.ok.inj h)
  subst e1
  unfold Intersection.makeVehicles at h2
  obtain ⟨_, _, h2⟩ := bind_ok h2
  obtain ⟨_, _, h2⟩ := bind_ok h2
  obtain ⟨_, _, h2⟩ := bind_ok h2
  obtain ⟨_, _, h2⟩ := bind_ok h2
  obtain ⟨_, _, h2⟩ := bind_ok h2
  exact (congrArg Prod.fst (Except.ok.inj h2)).symm

end Process

/-- **C62, any history of resets.**  After any sequence of resets of environments of the process: the speed ladder of the discrete-action vehicles is 0, 8, 16 m/s if a roundabout
was among them, and otherwise the one before; a class of traffic has the wanted distance 7 m and the comfortable accelerations 6 and -3 m/s² if an intersection with this class of
traffic, or one it inherits from, was among them, and otherwise those before.  Nothing else can have changed. -/
theorem resets_globals (G G' : Globals) (es : List ResetOf) (h : Resets G es G') :
    (G'.speedMin, G'.speedMax, G'.speedCount) = (if .roundabout ∈ es then (0, 16, 3) else (G.speedMin, G.speedMax, G.speedCount)) ∧
    ∀ k, (G'.distanceWanted k, G'.comfortAccMax k, G'.comfortAccMin k) =
      (if ∃ c, .intersection c ∈ es ∧ IsSubclass k c then (7, 6, -3) else (G.distanceWanted k, G.comfortAccMax k, G.comfortAccMin k)) := by
  induction h with
  | nil G => simp
  | highway _ _ ih => simpa using ih
  | merge _ _ ih => simpa using ih
  | twoWay _ _ ih => simpa using ih
  | parking _ _ ih => simpa using ih
  | summon _ _ ih => simpa using ih
  | laneKeeping _ _ ih => simpa using ih
  | roundabout h1 _ ih =>
    obtain ⟨i1, i2⟩ := ih
    have e := Process.round h1
    subst e
    refine ⟨?_, fun k => ?_⟩
    · rw [i1]; simp [Roundabout.ladder]
    · rw [i2 k]; simp [Roundabout.ladder]
  | @intersection G G1 G' cfg ord rng e es h1 _ ih =>
    obtain ⟨i1, i2⟩ := ih
    have e := Process.inter h1
    subst e
    refine ⟨?_, fun k => ?_⟩
    · rw [i1]; simp [Intersection.setTraffic]
    · rw [i2 k]
      by_cases hk : IsSubclass k cfg.otherVehiclesType
      · have hi := (Process.inherits_iff _ _).2 hk
        simp only [Intersection.setTraffic, hi, if_true, ite_self]
        rw [if_pos ⟨_, by simp, hk⟩]
      · have hi : ¬ (Intersection.inherits k cfg.otherVehiclesType = true) := fun h => hk ((Process.inherits_iff _ _).1 h)
        simp only [Intersection.setTraffic, if_neg hi]
        have : (∃ c, ResetOf.intersection c ∈ ResetOf.intersection cfg.otherVehiclesType :: es ∧ IsSubclass k c) ↔
            ∃ c, ResetOf.intersection c ∈ es ∧ IsSubclass k c := by
          constructor
          · rintro ⟨c, hc, hs⟩
            rcases List.mem_cons.1 hc with e | hc
            · injection e with e; subst e; exact absurd hs hk
            · exact ⟨c, hc, hs⟩
          · rintro ⟨c, hc, hs⟩; exact ⟨c, List.mem_cons_of_mem _ hc, hs⟩
        simp only [this]

/-- The order and the number of repetitions of the resets do not matter: histories with the same environments leave the same class attributes behind. -/
theorem resets_order (G G1 G2 : Globals) (es1 es2 : List ResetOf) (h1 : Resets G es1 G1) (h2 : Resets G es2 G2) (h : ∀ e, e ∈ es1 ↔ e ∈ es2) : G1 = G2 := by
  obtain ⟨a1, a2⟩ := resets_globals _ _ _ h1
  obtain ⟨b1, b2⟩ := resets_globals _ _ _ h2
  simp only [h] at a1 a2
  rw [← b1] at a1
  have key : ∀ k, (G1.distanceWanted k, G1.comfortAccMax k, G1.comfortAccMin k) = (G2.distanceWanted k, G2.comfortAccMax k, G2.comfortAccMin k) :=
    fun k => (a2 k).trans (b2 k).symm
  obtain ⟨c1, m1, x1, y1, z1, w1⟩ := G1
  obtain ⟨c2, m2, x2, y2, z2, w2⟩ := G2
  simp only [Prod.mk.injEq] at a1 key
  obtain ⟨rfl, rfl, rfl⟩ := a1
  obtain rfl : w1 = w2 := funext fun k => (key k).1
  obtain rfl : y1 = y2 := funext fun k => (key k).2.1
  obtain rfl : z1 = z2 := funext fun k => (key k).2.2
  rfl

/-- Without a roundabout and an intersection among them, nothing at all has changed. -/
theorem resets_harmless (G G' : Globals) (es : List ResetOf) (h : Resets G es G') (hr : .roundabout ∉ es) (hi : ∀ c, .intersection c ∉ es) : G' = G := by
  obtain ⟨a1, a2⟩ := resets_globals _ _ _ h
  rw [if_neg hr] at a1
  have key : ∀ k, (G'.distanceWanted k, G'.comfortAccMax k, G'.comfortAccMin k) = (G.distanceWanted k, G.comfortAccMax k, G.comfortAccMin k) := fun k => by
    rw [a2 k, if_neg]
    rintro ⟨c, hc, _⟩
    exact hi c hc
  obtain ⟨c1, m1, x1, y1, z1, w1⟩ := G'
  obtain ⟨c2, m2, x2, y2, z2, w2⟩ := G
  simp only [Prod.mk.injEq] at a1 key
  obtain ⟨rfl, rfl, rfl⟩ := a1
  obtain rfl : w1 = w2 := funext fun k => (key k).1
  obtain rfl : y1 = y2 := funext fun k => (key k).2.1
  obtain rfl : z1 = z2 := funext fun k => (key k).2.2
  rfl

/-- A history in a fresh process: highway, roundabout, intersection with its default traffic (`IDMVehicle`), highway again.  Whatever the random streams, it happens; the last
highway environment offers the speeds 0, 8, 16 m/s, and its traffic accelerates at up to 6 m/s². -/
example (ord : Graph.SetOrder) (r1 r2 r3 r4 : Rng) : ∃ G',
    Resets {} [.highway, .roundabout, .intersection .idm, .highway] G' ∧ (G'.speedMin, G'.speedMax, G'.speedCount) = (0, 16, 3) ∧
      (G'.distanceWanted .idm, G'.comfortAccMax .idm, G'.comfortAccMin .idm) = (7, 6, -3) := by
  obtain ⟨e1, h1, _⟩ := highway_reset {} {} highway_default_ok.1 r1
  obtain ⟨e2, _, _, _, _, _, h2, _⟩ := round_reset {} {} round_default_ok.1 ord r2
  obtain ⟨e3, _, h3, _⟩ := inter_reset { ({} : Globals) with speedMin := 0, speedMax := 16, speedCount := 3 } {} inter_default_ok.1 ord r3
  obtain ⟨e4, h4, _⟩ := highway_reset (Intersection.setTraffic ({} : IntersectionConfig).otherVehiclesType
    { ({} : Globals) with speedMin := 0, speedMax := 16, speedCount := 3 }) {} highway_default_ok.1 r4
  have h : Resets {} [.highway, .roundabout, .intersection .idm, .highway] _ :=
    .highway h1 (.roundabout h2 (.intersection h3 (.highway h4 (.nil _))))
  obtain ⟨a, b⟩ := resets_globals _ _ _ h
  refine ⟨_, h, ?_, ?_⟩
  · rw [a, if_pos (by simp)]
  · rw [b .idm, if_pos ⟨.idm, by simp, by simp [IsSubclass]⟩]

end HighwayEnv.Props
