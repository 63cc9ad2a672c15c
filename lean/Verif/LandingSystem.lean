import Verif.Slp
import Verif.LandingFilterProps

/-!
# The two landing nodes together: `safe_landing_planner_node.cpp` and `waypoint_generator_node.cpp`

Model only.  The planner node turns clouds into grids and publishes one grid message per run; the waypoint generator
node receives grid messages and iterates its state machine.  Between them is the topic `grid_slp`.
-/

namespace Avoidance
namespace Landing

set_option linter.unusedSectionVars false

variable {K : Type*} [Field K] [LinearOrder K] [IsStrictOrderedRing K] [FloorRing K]

/-- The planner, the static counter `grid_seq` of `publishSerialGrid` (safe_landing_planner_node.cpp:138), the grid messages on
their way (oldest first) and the waypoint generator node.  The topic (safe_landing_planner_node.cpp:29,
waypoint_generator_node.cpp:18; queues of length 1 at both ends) is a queue without bound that may lose messages: it has all the
behaviours of the bounded queues. -/
structure LandSys (K : Type*) where
  planner : Planner K
  seq : ℤ
  wire : List (GridMsg K)
  node : SlpNode K

/-- What happens: something to the planner (a run for `.cloud`), the delivery or the loss of the oldest message on its way, or
something to the waypoint generator node. -/
inductive LandEvent (K : Type*) where
  | planner (e : PlannerEvent K)
  | deliver
  | lose
  | node (e : SlpEvent K)

/-- `cmdLoopCallback` of the planner node, safe_landing_planner_node.cpp:104-111, after the planner has run: `publishSerialGrid`
publishes the message with the counter's value (142) and increments the counter (205).  Other events publish nothing. -/
def announce (sqrt : K → K) (s : LandSys K) (e : PlannerEvent K) (p : Planner K) : LandSys K :=
  match e with
  | .cloud _ => { s with planner := p, seq := s.seq + 1, wire := s.wire ++ [publishSerialGrid sqrt p s.seq] }
  | _ => { s with planner := p }

/-- The effect of an event.  `none` is undefined behaviour; an event that cannot take place now (the delivery of no message, an
iteration while `cmdLoopCallback`, waypoint_generator_node.cpp:39-41, still waits for a grid) changes nothing.  Grid messages
reach the node by `deliver` only. -/
def landStep (sqrt : K → K) (ny : V3 (Option K) → V3 (Option K) → Option K) (s : LandSys K) : LandEvent K → Option (LandSys K)
  | .planner e => (plannerStep s.planner e).map (announce sqrt s e)
  | .deliver =>
    match s.wire with
    | [] => some s
    | m :: rest => (slpStep ny s.node (.grid m)).map fun v => { s with wire := rest, node := v }
  | .lose => some { s with wire := s.wire.tail }
  | .node e =>
    match e with
    | .grid _ => some s
    | .iterate => if s.node.grid_received = true then (slpStep ny s.node .iterate).map fun v => { s with node := v } else some s
    | e => (slpStep ny s.node e).map fun v => { s with node := v }

/-- Both nodes at their start: safe_landing_planner.hpp:60-81, safe_landing_planner_node.cpp:138,
waypoint_generator.hpp:35-79. -/
def landInit : LandSys K := ⟨plannerInit, 0, [], slpInit⟩

end Landing
end Avoidance
