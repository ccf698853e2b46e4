import Verif.Model.Envs.Roundabout
import Verif.Spec.Merge

/-!
# Specification vocabulary: the roundabout environment
-/

noncomputable section
namespace HighwayEnv.Spec
open HighwayEnv

/-- Lane number `k` of the circle (20 m or 24 m around the origin) from angle `a` to angle `b`, in degrees, driven in the direction of
decreasing angles. -/
def ringLane (k : ℕ) (a b : ℝ) : Lane :=
  { shape := .circular ⟨0, 0⟩ (20 + 4 * (k : ℝ)) (a * (Real.pi / 180)) (b * (Real.pi / 180)) false }

/-- Both lanes of a quadrant piece. -/
def ringRoad (a b : ℝ) : List Lane := [ringLane 0 a b, ringLane 1 a b]

/-- A straight lane of 4 m. -/
def plainLane (a b : Vec2) : Lane := { shape := .straight a b }

/-- A swerving lane of 4 m: a sine of amplitude 5 m and wavelength 85 m around the segment from `a` to `b`, with the given phase. -/
def swerveLane (a b : Vec2) (phase : ℝ) : Lane := { shape := .sine a b 5 (2 * Real.pi / 85) phase }

/-- Phase of the entries, and of the exits (four fifths of a period later). -/
def entryPhase : ℝ := -Real.pi / 2
/-- Phase of the exits. -/
def exitPhase : ℝ := -Real.pi / 2 + 2 * Real.pi / 85 * 68

/-- The map of the roundabout: a circle of two lanes `se → ex → ee → nx → ne → wx → we → sx → se` and, on each side, an access `?er → ?es → ?e`
and an exit `?x → ?xs → ?xr`. -/
def roundNet : Graph :=
  [("se", [("ex", ringRoad 66 24)]),
   ("ex", [("ee", ringRoad 24 (-24)), ("exs", [swerveLane ⟨25.5, 7⟩ ⟨42.5, 7⟩ exitPhase])]),
   ("ee", [("nx", ringRoad (-24) (-66))]),
   ("nx", [("ne", ringRoad (-66) (-114)), ("nxs", [swerveLane ⟨7, -25.5⟩ ⟨7, -42.5⟩ exitPhase])]),
   ("ne", [("wx", ringRoad (-114) (-156))]),
   ("wx", [("we", ringRoad (-156) (-204)), ("wxs", [swerveLane ⟨-25.5, -7⟩ ⟨-42.5, -7⟩ exitPhase])]),
   ("we", [("sx", ringRoad 156 114)]),
   ("sx", [("se", ringRoad 114 66), ("sxs", [swerveLane ⟨-7, 25.5⟩ ⟨-7, 42.5⟩ exitPhase])]),
   ("ser", [("ses", [plainLane ⟨2, 170⟩ ⟨2, 42.5⟩])]),
   ("ses", [("se", [swerveLane ⟨7, 42.5⟩ ⟨7, 25.5⟩ entryPhase])]),
   ("sxs", [("sxr", [plainLane ⟨-2, 42.5⟩ ⟨-2, 170⟩])]),
   ("eer", [("ees", [plainLane ⟨170, -2⟩ ⟨42.5, -2⟩])]),
   ("ees", [("ee", [swerveLane ⟨42.5, -7⟩ ⟨25.5, -7⟩ entryPhase])]),
   ("exs", [("exr", [plainLane ⟨42.5, 2⟩ ⟨170, 2⟩])]),
   ("ner", [("nes", [plainLane ⟨-2, -170⟩ ⟨-2, -42.5⟩])]),
   ("nes", [("ne", [swerveLane ⟨-7, -42.5⟩ ⟨-7, -25.5⟩ entryPhase])]),
   ("nxs", [("nxr", [plainLane ⟨2, -42.5⟩ ⟨2, -170⟩])]),
   ("wer", [("wes", [plainLane ⟨-170, 2⟩ ⟨-42.5, 2⟩])]),
   ("wes", [("we", [swerveLane ⟨-42.5, 7⟩ ⟨-25.5, 7⟩ entryPhase])]),
   ("wxs", [("wxr", [plainLane ⟨-42.5, -2⟩ ⟨-170, -2⟩])])]

/-- The nodes of the circle, in driving order. -/
def ringNodes : List String := ["se", "ex", "ee", "nx", "ne", "wx", "we", "sx"]

/-- The second lane starts where the first one ends, in the same direction (up to whole turns). -/
def JoinsTurn (l l' : Lane) : Prop :=
  l.position l.length 0 = l'.position 0 0 ∧ ∃ n : ℤ, l.headingAt l.length = l'.headingAt 0 + n * (2 * Real.pi)

/-- The distance between the end of a lane and the start of the next one. -/
def gapBetween (l l' : Lane) : ℝ := (l'.position 0 0 - l.position l.length 0).norm

/-- The score of the roundabout: -1 for a crash, 0.2 for the speed level (relative to the highest one), -0.05 for actions number 0 and 2; the
sum is mapped affinely so that -1.05 gives 0 and 0.2 gives 1. -/
def roundScore (crashed : Bool) (share : ℝ) (k : Int) : ℝ :=
  ((if crashed then -1 else 0) + 0.2 * share + (if k = 0 ∨ k = 2 then -0.05 else 0) + 1.05) / 1.25

/-- Configurations of the roundabout with which an episode can be played, `G` being the class attributes found by the reset. -/
structure RoundOk (G : Globals) (cfg : RoundaboutConfig) : Prop where
  action : ∃ lo la, cfg.sim.action = .single (.discrete lo la) ∧ (lo = true ∨ la = true)
  count : 1 ≤ G.speedCount ∧ G.speedCount ≤ 3
  traffic : cfg.otherVehiclesType.isIDM = true
  incoming : ∀ k, cfg.incomingVehicleDestination = some k → -3 ≤ k ∧ k < 3

/-- The roads of the trip of the ego vehicle: in from the south, a third of the circle, out to the north. -/
def egoTrip : List RouteStep :=
  [⟨"ser", "ses", some 0⟩, ⟨"ses", "se", none⟩, ⟨"se", "ex", none⟩, ⟨"ex", "ee", none⟩, ⟨"ee", "nx", none⟩, ⟨"nx", "nxs", none⟩]

end HighwayEnv.Spec
