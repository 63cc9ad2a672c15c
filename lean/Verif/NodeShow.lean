import Verif.NodeRun

/-!
# What the local planner shows of its flight (local_planner/src/nodes/local_planner_visualization.cpp 162-190, 321-500,
local_planner/src/nodes/local_planner_nodelet.cpp 199-205, 283-317)

Model only, on top of the node of `NodeRun`: the markers drawn in every round of the command loop. Left out: stamps, frames, sizes,
transparency and the colours that never change. (Images, tree and range scan are in `Display`.)
-/

namespace Avoidance

/-- The markers of one round: local_planner_nodelet.cpp 300-308. -/
structure Drawn where
  /-- `visualizeWaypoints`: the positions of the three spheres -/
  goto : V3 ℝ
  adapted : V3 ℝ
  smoothed : V3 ℝ
  /-- `publishPaths`: the number of the three lines, and their ends -/
  id : ℕ
  flown : V3 ℝ × V3 ℝ
  waypoints : V3 ℝ × V3 ℝ
  adaptedWaypoints : V3 ℝ × V3 ℝ
  /-- `publishCurrentSetpoint`: the arrow -/
  arrowFrom : V3 ℝ
  arrowTip : V3 (Option ℝ)
  arrowColour : ℕ × ℕ × ℕ
  /-- `publishOfftrackPoints` -/
  closest : V3 (Option ℝ)
  deg60 : V3 (Option ℝ)

/-- The members used for drawing: `last_position_`, `newest_waypoint_position_`, `newest_adapted_waypoint_position_`
(local_planner_nodelet.h:214-220; nobody initialises them) and `path_length_` of the visualizer (local_planner_visualization.h:140),
with everything drawn. (`last_waypoint_position_` and `last_adapted_waypoint_position_` are written and read in the same function.) -/
structure ShowSt where
  last_position : V3 ℝ
  newest_waypoint : V3 ℝ
  newest_adapted : V3 ℝ
  path_length : ℕ
  drawn : List Drawn

noncomputable section

/-- `setpoint.color`, local_planner_visualization.cpp:476-497. -/
def stateColour : PlannerState → ℕ × ℕ × ℕ
  | .LOITER => (1, 1, 0)
  | .TRY_PATH => (0, 1, 0)
  | .DIRECT => (0, 0, 1)
  | .ALTITUDE_CHANGE => (1, 0, 1)

/-- `tip`, local_planner_visualization.cpp:467-469. -/
def arrowTipOf (p : V3 ℝ) (v : V3 (Option ℝ)) : V3 (Option ℝ) := ⟨v.x.map (p.x + ·), v.y.map (p.y + ·), v.z.map (p.z + ·)⟩

/-- `calculateWaypoints`, local_planner_nodelet.cpp:283-308, after the generator's cycle has given `g`. The off-track points are
`closest_pt_` and `tmp_goal_` of the generator (waypoint_generator.cpp:460-466), which are never written: they stay NaN
(waypoint_generator.h:44-45). -/
def draw (position : V3 ℝ) (g : PlannerState × WgState) (t : ShowSt) : ShowSt :=
  { last_position := t.last_position
    newest_waypoint := g.2.out_smoothed
    newest_adapted := g.2.out_adapted
    path_length := t.path_length + 1
    drawn := t.drawn ++ [{
      goto := g.2.out_goto
      adapted := g.2.out_adapted
      smoothed := g.2.out_smoothed
      id := t.path_length
      flown := (t.last_position, position)
      waypoints := (t.newest_waypoint, g.2.out_smoothed)
      adaptedWaypoints := (t.newest_adapted, g.2.out_adapted)
      arrowFrom := position
      arrowTip := arrowTipOf position g.2.out_linear_velocity
      arrowColour := stateColour g.1
      closest := ⟨none, none, some g.2.goal.z⟩
      deg60 := V3.nan }] }

/-- What an event does to the drawing: `positionCallback` (line 200) and `cmdLoopCallback` (270-272); `s` and `s'` are the node
before and after. -/
def showStep (s : NodeSt) (t : ShowSt) (e : NodeEvent) (s' : NodeSt) : ShowSt :=
  match e with
  | .pose _ _ => { t with last_position := s.position }
  | .send now =>
    if (checkFailsafe (now - s.last_wp_time) (now - s.start_time) ⟨s.status, false⟩).status = .ACTIVE then draw s.position s'.gen t else t
  | _ => t

/-- One event of the node with its drawing (the callbacks of `NodeRun`, local_planner_nodelet.cpp). -/
def nodeShowStep (Q : PriorityQueue (Candidate ℝ) Candidate.lt) (x : NodeSt × ShowSt) (e : NodeEvent) : Option (NodeSt × ShowSt) :=
  (nodeStep Q x.1 e).map fun s' => (s', showStep x.1 x.2 e s')

end
end Avoidance
