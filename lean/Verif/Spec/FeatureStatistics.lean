import Verif.Model.FeatureStatistics

/-!
# Specification vocabulary for the tracking statistics: the log of frames

Independently of how the statistics are stored, a client's calls define a log: the frames closed by
`increaseStatistics` since the last reset (most recent first) and the statuses of the current frame.
-/

namespace Rovio.Stat

variable {nCam : ℕ}

/-- The statuses of one frame in all cameras. -/
abbrev Frame (nCam : ℕ) := Fin nCam → Status

/-- The log: current frame, closed frames (most recent first), and the time stamps at which the
frames were opened (current one first). -/
structure Log (nCam : ℕ) where
  current : Frame nCam
  past : List (Frame nCam)
  times : List ℝ

/-- A fresh log. -/
def Log.fresh (t : ℝ) : Log nCam := ⟨fun _ => .unknown, [], [t]⟩

/-- How a client operation extends the log. -/
def Log.step (l : Log nCam) : Op nCam → Log nCam
  | .setStatus i s => { l with current := Function.update l.current i s }
  | .increase t => ⟨fun _ => .unknown, l.current :: l.past, t :: l.times⟩
  | .reset t => Log.fresh t

/-- The log of a history of operations. -/
def Log.run (l : Log nCam) (ops : List (Op nCam)) : Log nCam := ops.foldl Log.step l

/-- All frames, the current one first. -/
def Log.frames (l : Log nCam) : List (Frame nCam) := l.current :: l.past

/-- The time stamps are strictly increasing (the condition under which the code prints no error). -/
def Log.Incremental (l : Log nCam) : Prop := l.times.Pairwise (· > ·)

end Rovio.Stat
