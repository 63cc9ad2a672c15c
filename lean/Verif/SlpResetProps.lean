import Verif.SlpObserveProps

/-!
# The landing state machine: resets (C49), validity flags (C50), concrete runs (C47, C48, C49)
-/

namespace Avoidance
namespace Landing

set_option linter.unusedSectionVars false

variable {K : Type*} [Field K] [LinearOrder K] [IsStrictOrderedRing K] [FloorRing K]

/-! ## C49 -/

/-- The messages that end the landing procedure: any mode but AUTO.LAND and AUTO.MISSION, or not armed. -/
def SlpEvent.isReset : SlpEvent K → Prop
  | .state mode armed => mode = .other ∨ armed = false
  | _ => False

theorem reset_flags (ny : V3 (Option K) → V3 (Option K) → Option K) (s s' : SlpNode K) (e : SlpEvent K) (he : e.isReset)
    (h : slpStep ny s e = some s') : s'.gen.trigger_reset = true ∧ s'.gen.is_land_waypoint = false := by
  cases e with
  | state mode armed =>
    rw [← Option.some_inj.mp h]
    unfold stateCallback
    rcases he with rfl | rfl
    · cases armed <;> exact ⟨rfl, rfl⟩
    · cases mode <;> exact ⟨rfl, rfl⟩
  | position p y => exact absurd he id
  | trajectory m => exact absurd he id
  | grid m => exact absurd he id
  | reconfigure a b c d f g => exact absurd he id
  | iterate => exact absurd he id

/-- **C49.** In every run: if a message disarms the vehicle or reports a mode other than AUTO.LAND and AUTO.MISSION, the
next iteration - whatever messages arrive before it - sends nothing and puts the state machine into its initial state,
and the request is consumed. -/
theorem C49_reset {ny : V3 (Option K) → V3 (Option K) → Option K} {N : ℕ} {h : ℕ → SlpNode K} {ev : ℕ → SlpEvent K}
    (r : SlpRun ny N h ev) (k m : ℕ) (hkm : k < m) (hm : m < N) (hk : (ev k).isReset)
    (hmid : ∀ i, k < i → i < m → ¬ (ev i).isIterate) (hi : (ev m).isIterate) :
    (h (m + 1)).gen.state = .GOTO ∧ (h (m + 1)).gen.sent = (h m).gen.sent ∧ (h (m + 1)).gen.trigger_reset = false := by
  have key : ∀ d, k + 1 + d ≤ m → (h (k + 1 + d)).gen.trigger_reset = true := by
    intro d
    induction d with
    | zero => intro _; exact (reset_flags ny _ _ _ hk (r.step k (by omega))).1
    | succ d ih =>
      intro hd
      exact (callback_frame ny _ _ _ (hmid _ (by omega) (by omega)) (r.step (k + 1 + d) (by omega))).2.2.2.2.2.2.1 (ih (by omega))
  have ht := key (m - (k + 1)) (by omega)
  rw [show k + 1 + (m - (k + 1)) = m by omega] at ht
  have hc := run_iterate r m hm hi
  rcases calc_cases ny _ _ hc with ⟨_, e⟩ | ⟨h0, _⟩
  · rw [e]
    refine ⟨?_, (update_frame _).2.2.2.2.2.2.2.2.2.2.2.1, rfl⟩
    rw [slpChoose_state]
    cases ({ updateSlpState (h m).gen with trigger_reset := false } : Slp K).state <;> rfl
  · rw [h0] at ht; cases ht

/-- **C49, progress is forgotten.** Every iteration while no landing waypoint is in force clears the collected evidence,
the decision and the exploration; and from GOTO the machine does not move. -/
theorem C49_forgets (ny : V3 (Option K) → V3 (Option K) → Option K) (w w' : Slp K) (hl : w.is_land_waypoint = false)
    (h : calculateWaypoint ny w = some w') (hs : w.state = .GOTO ∨ w.trigger_reset = true) :
    w'.state = .GOTO ∧ w'.decision_taken = false ∧ w'.can_land = true ∧ w'.exploration_is_active = false ∧
    w'.n_explored_pattern = -1 ∧ w'.factor_exploration = 1 ∧ w'.landing_radius = 2 ∧ ∀ i j, w'.hyst i j = 0 := by
  have hu : (updateSlpState w).decision_taken = false ∧ (updateSlpState w).can_land = true ∧
      (updateSlpState w).exploration_is_active = false ∧ (updateSlpState w).n_explored_pattern = -1 ∧
      (updateSlpState w).factor_exploration = 1 ∧ (updateSlpState w).landing_radius = 2 ∧
      ∀ i j, (updateSlpState w).hyst i j = 0 := by
    have e : (updateHysteresisSize (updateMask w)).is_land_waypoint = false := by
      unfold updateHysteresisSize updateMask
      split_ifs <;> exact hl
    unfold updateSlpState updateNotLanding
    rw [if_neg (by rw [e]; decide)]
    exact ⟨rfl, rfl, rfl, rfl, rfl, rfl, fun _ _ => rfl⟩
  have f := update_frame w
  rcases calc_cases ny w w' h with ⟨_, rfl⟩ | ⟨h0, t, v, rfl, hm⟩
  · refine ⟨?_, hu⟩
    rw [slpChoose_state]
    cases ({ updateSlpState w with trigger_reset := false } : Slp K).state <;> rfl
  · have hs' : w.state = .GOTO := by
      rcases hs with hs | hs
      · exact hs
      · rw [h0] at hs; cases hs
    rw [hs'] at hm
    dsimp only at hm
    unfold runGoTo at hm
    obtain ⟨hgt, _, hd⟩ := Option.bind_eq_some_iff.mp hm
    have hp : goToPublish ny (updateSlpState w) =
        publish (updateSlpState w) (updateSlpState w).goal (updateSlpState w).velocity_setpoint
          (updateSlpState w).yaw_setpoint (updateSlpState w).yaw_speed_setpoint := by
      unfold goToPublish
      rw [if_neg (by rw [hu.2.2.1]; decide)]
    rw [hp] at hd
    unfold goToDecide at hd
    have hl' : (updateSlpState w).is_land_waypoint = false := by rw [f.2.2.2.2.2.2.1]; exact hl
    rw [if_neg (by rintro ⟨_, h2, _⟩; exact Bool.noConfusion ((show (updateSlpState w).is_land_waypoint = true from h2).symm.trans hl')),
      if_neg (by rintro ⟨_, h2, _⟩; exact Bool.noConfusion ((show (updateSlpState w).is_land_waypoint = true from h2).symm.trans hl'))] at hd
    cases hd
    rw [if_neg (by decide)]
    exact ⟨by show (updateSlpState w).state = _; rw [f.1, hs'], hu.1, hu.2.1, hu.2.2.1, hu.2.2.2.1, hu.2.2.2.2.1,
      hu.2.2.2.2.2.1, fun _ _ => rfl⟩

/-- **C49, other mode messages.** AUTO.MISSION while armed changes nothing; AUTO.LAND while armed only puts a landing
waypoint in force. -/
theorem C49_other_modes (s : SlpNode K) :
    stateCallback s .AUTO_MISSION true = s ∧
    stateCallback s .AUTO_LAND true = { s with gen := { s.gen with is_land_waypoint := true } } := ⟨rfl, rfl⟩

/-! ## Concrete runs -/

/-- A message for a landing waypoint at `(x, y, z)`; `x2` identifies the goal. -/
def landMessage (x z x2 : ℚ) : SlpTrajectory ℚ :=
  { valid0 := true, valid1 := true, position1 := ⟨some x, some 0, some z⟩, velocity1 := nan3,
    position2 := ⟨some x2, some 0, some 0⟩, yaw2 := none, yaw_rate2 := none, command1 := 21 }

/-- A `3 × 3` grid, all landable, at height 0. -/
def flatGrid (seq : ℤ) : GridMsg ℚ :=
  { seq := seq, grid_size := 3, cell_size := 1, rows := 3, cols := 3, mean := List.replicate 9 0,
    std_dev := List.replicate 9 0, counter := List.replicate 9 10, land := List.replicate 9 1, pos_index := (1, 1) }

/-- Approach of a flat landing site at the origin, up to the decision. -/
def flatApproach : List (SlpEvent ℚ) :=
  [.reconfigure 0 (4/10) 4 1 2 1, .position ⟨some 0, some 0, some 4⟩ (some 0), .trajectory (landMessage 0 4 0),
   .grid (flatGrid 1), .iterate, .iterate, .iterate, .grid (flatGrid 30), .iterate, .iterate]

/-- The run of a list of events. -/
def slpRunList (evs : List (SlpEvent ℚ)) : Option (SlpNode ℚ) := loopM (slpStep fun _ _ => none) slpInit evs

/-- The approach ends on the way to the landing site, at the origin; the next iteration starts the landing (the
hypotheses of C47 are met). -/
example : (slpRunList flatApproach).map (fun s => (s.gen.state, s.gen.goal)) =
    some (.GOTO_LAND, ⟨some 0, some 0, some 4⟩) ∧
    (slpRunList (flatApproach ++ [.iterate])).map (fun s => s.gen.state) = some .LAND := by decide +kernel

/-- **C47, finding.** A goal message that arrives between the evaluation and the landing moves the landing: here the patch
around the origin was evaluated, and the vehicle lands 100 m away, at a place for which no grid has ever been received. -/
theorem C47_unchecked_landing_witness :
    (slpRunList (flatApproach ++ [.trajectory (landMessage 100 4 50), .position ⟨some 100, some 0, some 4⟩ (some 0),
      .iterate, .iterate])).map (fun s => (s.gen.state, s.gen.sent.head?.map (fun p => (p.pos.x, p.vel.z)))) =
    some (.LAND, some (some 100, some (-7/10))) := by decide +kernel

/-- A climb to the loiter height, interrupted by a mode change. -/
def interruptedClimb : List (SlpEvent ℚ) :=
  [.reconfigure 0 (4/10) 4 1 2 1, .position ⟨some 0, some 0, some 1⟩ (some 0), .trajectory (landMessage 0 1 0),
   .grid (flatGrid 1), .iterate, .iterate, .state .other true]

/-- The repetition of the waypoint, not as a landing waypoint. -/
def sameWaypoint : SlpTrajectory ℚ := { landMessage 0 1 0 with command1 := 16 }

/-- **C49, finding.** A reset during the change of altitude leaves the vertical speed and the undefined height in the goal:
after it the vehicle keeps being told to climb at 0.7 m/s, even when the autopilot repeats the waypoint, now not a
landing waypoint. -/
theorem C49_stale_velocity_witness :
    (slpRunList (interruptedClimb ++ [.iterate, .trajectory sameWaypoint, .iterate])).map
      (fun s => (s.gen.state, s.gen.is_land_waypoint, s.gen.sent.head?.map (fun p => (p.pos.z, p.vel.z)))) =
    some (.GOTO, false, some (none, some (7/10))) := by decide +kernel

/-- The same run shows that the hypotheses of C49 are met: from ALTITUDE_CHANGE back to GOTO. -/
example :
    (slpRunList interruptedClimb).map (fun s => (s.gen.state, s.gen.sent.length)) = some (.ALTITUDE_CHANGE, 2) ∧
    (slpRunList (interruptedClimb ++ [.iterate])).map (fun s => (s.gen.state, s.gen.sent.length)) = some (.GOTO, 2) := by
  decide +kernel

/-- **C48, finding.** The visualisation of the landing area addresses the cells around index 20, whatever the size of the
grid: with the 3-cell grid of the runs above (patch size 1), which the evaluation handles correctly, it writes outside its
matrix. -/
theorem C48_visualisation_witness :
    ((slpRunList flatApproach).map fun s => decide (s.gen.state = .GOTO_LAND)) = some true ∧
    ∀ s, slpRunList flatApproach = some s → ¬ visualisationInRange s.gen := by
  refine ⟨by decide +kernel, fun s hs => ?_⟩
  have e : (slpRunList flatApproach).map (fun s => (s.gen.smoothing_land_cell, s.gen.mask_n, s.gen.hyst_n)) = some (1, 3, 3) := by
    decide +kernel
  rw [hs] at e
  simp only [Option.map_some, Option.some_inj, Prod.mk.injEq] at e
  unfold visualisationInRange
  rw [e.1, e.2.1, e.2.2]
  omega

/-- **C48, visualisation.** It stays inside the matrices exactly if the patch fits around cell 20 and around the centre;
in particular for the default grid (40 cells) with a patch size up to 19. -/
theorem C48_visualisation_default (w : Slp K) (hn : w.grid.n = 40) (hc : Consistent w) (hs : w.smoothing_land_cell ≤ 19) :
    visualisationInRange w := by
  unfold visualisationInRange
  dsimp only
  rw [hc.mask_n, hc.hyst_n, hn]
  omega

/-! ## C50 -/

/-- Every axis has a finite position or velocity. -/
def Complete (sp : Setpoint K) : Prop :=
  ((sp.pos.x ≠ none ∧ sp.pos.y ≠ none) ∨ (sp.vel.x ≠ none ∧ sp.vel.y ≠ none)) ∧ (sp.pos.z ≠ none ∨ sp.vel.z ≠ none)

/-- **C50 (partial): the exact condition.** A published setpoint is flagged valid exactly if its horizontal position or
its horizontal velocity is finite; the vertical components are not checked, although they were meant to be. -/
theorem C50_exact_partial (sp : Setpoint K) :
    pointValid sp = true ↔ (sp.pos.x ≠ none ∧ sp.pos.y ≠ none) ∨ (sp.vel.x ≠ none ∧ sp.vel.y ≠ none) := by
  obtain ⟨⟨px, py, pz⟩, ⟨vx, vy, vz⟩, y, ys⟩ := sp
  unfold pointValid
  cases px <;> cases py <;> cases vx <;> cases vy <;> simp

/-- **C50.** Complete setpoints are flagged valid. -/
theorem C50_complete_valid (sp : Setpoint K) (h : Complete sp) : pointValid sp = true := (C50_exact_partial sp).mpr h.1

/-- **C50, finding.** A setpoint without any vertical information is flagged valid, and the node does send one: here at
the first iteration after a goal message with an undefined height. -/
theorem C50_incomplete_valid_witness :
    ∃ s sp, slpRunList [.reconfigure 0 (4/10) 4 1 2 1, .position ⟨some 0, some 0, some 1⟩ (some 0),
        .trajectory { landMessage 0 1 0 with position1 := ⟨some 0, some 0, none⟩ }, .grid (flatGrid 1), .iterate] = some s ∧
      s.gen.sent.head? = some sp ∧ pointValid sp = true ∧ ¬ Complete sp := by
  have e : ((slpRunList [.reconfigure 0 (4/10) 4 1 2 1, .position ⟨some 0, some 0, some 1⟩ (some 0),
        .trajectory { landMessage 0 1 0 with position1 := ⟨some 0, some 0, none⟩ }, .grid (flatGrid 1), .iterate]).bind
      fun s => s.gen.sent.head?) = some ⟨⟨some 0, some 0, none⟩, nan3, none, none⟩ := by decide +kernel
  obtain ⟨s, hs, hsp⟩ := Option.bind_eq_some_iff.mp e
  refine ⟨s, _, hs, hsp, by decide +kernel, ?_⟩
  rintro ⟨_, h | h⟩ <;> exact h rfl

end Landing
end Avoidance
