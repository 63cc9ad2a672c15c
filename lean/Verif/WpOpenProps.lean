import Verif.WpOpen
import Verif.WpGenProps
import Verif.WpGenSmooth

/-!
# A goal whose height is left open (C124)
-/

namespace Avoidance

noncomputable section
open Classical

/-- Specification: in this round the autopilot lands, or is on its way home (where an open height means its descent), and nothing
asks the vehicle to stay. -/
def Down (i : WgIn) : Prop := (i.nav = .auto_land ∨ (i.nav = .mission ∧ i.is_land = true) ∨ i.nav = .auto_rtl) ∧ i.stay = false

/-- Specification: the vehicle flies in offboard mode in this round, and nothing asks it to stay. -/
def OffboardIn (i : WgIn) : Prop := i.nav = .offboard ∧ i.airborne = true ∧ i.stay = false

/-- Specification: the vehicle is horizontally faster than 0.5 m/s. -/
def FastIn (i : WgIn) : Prop := 1 / 2 < i.velocity.normXY

/-- Specification: the place to hold after some rounds: where the vehicle was in the last one in which it was fast, else `c`. -/
def heldPlace (c : V3 ℝ) : List (PlannerInfo × WgIn × ℝ) → V3 ℝ
  | [] => c
  | (_, i, _) :: rest => heldPlace (if FastIn i then i.position else c) rest

/-- What a cycle starts from (helper). -/
def openStart (s : OpenState) (pl : PlannerInfo) (i : WgIn) (now : ℝ) : OpenState :=
  { s with w := wgStart { s.w with planner := pl } { i with goal := ⟨i.goal.x, i.goal.y, 0⟩ } now }

theorem openCycle_eq (x : PlannerState × OpenState) (pl : PlannerInfo) (i : WgIn) (now : ℝ) :
    openCycle x pl i now = openMachine.iterateOnce x.1 (openStart x.2 pl i now) := rfl

/-- The two states agree in what `getPathMsg` does not touch (helper). -/
structure SameW (a b : WgState) : Prop where
  loiter : a.loiter = b.loiter
  nav : a.nav = b.nav
  is_land : a.is_land = b.is_land
  is_takeoff : a.is_takeoff = b.is_takeoff
  planner : a.planner = b.planner
  current_time : a.current_time = b.current_time
  auto_land : a.auto_land = b.auto_land
  change : a.change_altitude_pos = b.change_altitude_pos
  reach : a.reach_altitude_offboard = b.reach_altitude_offboard
  lin : a.out_linear_velocity = b.out_linear_velocity
  goto_ : a.out_goto = b.out_goto
  sxy : a.smoothing_speed_xy = b.smoothing_speed_xy
  sz : a.smoothing_speed_z = b.smoothing_speed_z

theorem SameW.refl (a : WgState) : SameW a a := by constructor <;> rfl

theorem SameW.trans {a b c : WgState} (h : SameW a b) (h' : SameW b c) : SameW a c :=
  ⟨h.1.trans h'.1, h.2.trans h'.2, h.3.trans h'.3, h.4.trans h'.4, h.5.trans h'.5, h.6.trans h'.6, h.7.trans h'.7,
    h.8.trans h'.8, h.9.trans h'.9, h.10.trans h'.10, h.11.trans h'.11, h.12.trans h'.12, h.13.trans h'.13⟩

theorem sameW_yaw (st : PlannerState) (dt : ℝ) (s : WgState) : SameW (nextSmoothYaw st dt s) s := by
  unfold nextSmoothYaw
  dsimp only
  split <;> constructor <;> rfl

theorem sameW_speed (st : PlannerState) (dt : ℝ) (s : OpenState) :
    SameW (adaptSpeedOpen st dt s).w s.w ∧ (adaptSpeedOpen st dt s).goto_z = s.goto_z := by
  unfold adaptSpeedOpen
  dsimp only
  generalize (if st ≠ .ALTITUDE_CHANGE then _ else (1 : ℝ)) = sc
  cases s.goto_z with
  | none => exact ⟨by constructor <;> rfl, rfl⟩
  | some z => exact ⟨by constructor <;> rfl, rfl⟩

theorem sameW_smooth (dt : ℝ) (s : OpenState) :
    SameW (smoothWaypointOpen dt s).w s.w ∧ (smoothWaypointOpen dt s).goto_z = s.goto_z := by
  unfold smoothWaypointOpen
  dsimp only
  split
  · exact ⟨by constructor <;> rfl, rfl⟩
  · split
    · exact ⟨SameW.refl _, rfl⟩
    · exact ⟨by constructor <;> rfl, rfl⟩

theorem sameW_path (st : PlannerState) (s : OpenState) :
    SameW (getPathMsgOpen st s).w s.w ∧ (getPathMsgOpen st s).goto_z = s.goto_z := by
  have h0 : SameW (nextSmoothYaw st (pathDt { s.w with out_adapted := s.w.out_goto }) { s.w with out_adapted := s.w.out_goto }) s.w :=
    (sameW_yaw _ _ _).trans (by constructor <;> rfl)
  unfold getPathMsgOpen
  dsimp only
  generalize nextSmoothYaw st (pathDt { s.w with out_adapted := s.w.out_goto }) { s.w with out_adapted := s.w.out_goto } = w at h0 ⊢
  split
  · exact ⟨(show SameW _ w by constructor <;> rfl).trans h0, rfl⟩
  · obtain ⟨a1, a2⟩ := sameW_speed st (pathDt { s.w with out_adapted := s.w.out_goto }) { s with w := w, adapted_z := s.goto_z }
    obtain ⟨b1, b2⟩ := sameW_smooth (pathDt { s.w with out_adapted := s.w.out_goto })
      (adaptSpeedOpen st (pathDt { s.w with out_adapted := s.w.out_goto }) { s with w := w, adapted_z := s.goto_z })
    generalize adaptSpeedOpen st _ _ = t at a1 a2 b1 b2 ⊢
    generalize smoothWaypointOpen _ t = u at b1 b2 ⊢
    exact ⟨(show SameW _ u.w by constructor <;> rfl).trans (b1.trans (a1.trans h0)), b2.trans a2⟩

/-- The decision about the altitude, when the autopilot lands or returns home (helper). -/
theorem altitude_down (s : WgState) (h : s.nav = .auto_land ∨ (s.nav = .mission ∧ s.is_land = true) ∨ s.nav = .auto_rtl) :
    isAltitudeChangeOpen s = (true, { s with auto_land := true }) := by
  unfold isAltitudeChangeOpen
  rcases h with h | ⟨h, h'⟩ | h
  · simp [h]
  · simp [h, h']
  · simp [h]

/-- The decision about the altitude in offboard mode (helper). -/
theorem altitude_offboard (s : WgState) (h : s.nav = .offboard) (h' : s.reach_altitude_offboard = false) :
    isAltitudeChangeOpen s = (true, { s with auto_land := false }) := by
  unfold isAltitudeChangeOpen
  simp [h, h']

/-- The autopilot is landing or returning, as the generator sees it (helper). -/
def DownW (s : WgState) : Prop :=
  (s.nav = .auto_land ∨ (s.nav = .mission ∧ s.is_land = true) ∨ s.nav = .auto_rtl) ∧ s.loiter = false

theorem DownW.same {a b : WgState} (h : SameW a b) (hb : DownW b) : DownW a := by
  unfold DownW
  rw [h.nav, h.is_land, h.loiter]
  exact hb

theorem loiter_down (t : OpenState) (h : DownW t.w) : (runLoiterOpen t).1 = .NEXT1 := by
  unfold runLoiterOpen
  dsimp only
  generalize hv : ({ t with w := { t.w with hover_position := _, out_goto := _ }, goto_z := _ } : OpenState) = v
  have hs : DownW (getPathMsgOpen .LOITER v).w := DownW.same (sameW_path .LOITER v).1 (by rw [← hv]; exact h)
  rw [hs.2]
  rfl

theorem try_down (t : OpenState) (h : DownW t.w) :
    (runTryPathOpen t).1 = .NEXT1 ∧ (runTryPathOpen t).2.w.auto_land = true := by
  unfold runTryPathOpen
  dsimp only
  generalize hv : ({ t with w := { t.w with out_goto := _ }, goto_z := _ } : OpenState) = v
  have hs : DownW (getPathMsgOpen .TRY_PATH v).w := DownW.same (sameW_path .TRY_PATH v).1 (by rw [← hv]; exact h)
  rw [hs.2, altitude_down _ hs.1]
  exact ⟨rfl, rfl⟩

theorem alt_down (t : OpenState) (h : DownW t.w) (h' : DownW (altTargetOpen { t with w := altEnter t.w }).w) :
    runAltitudeChangeOpen t = (.REPEAT,
      { getPathMsgOpen .ALTITUDE_CHANGE (altTargetOpen { t with w := altEnter t.w }) with
        w := { (getPathMsgOpen .ALTITUDE_CHANGE (altTargetOpen { t with w := altEnter t.w })).w with auto_land := true } }) := by
  unfold runAltitudeChangeOpen
  dsimp only
  have hs := DownW.same (sameW_path .ALTITUDE_CHANGE _).1 h'
  rw [hs.2, altitude_down _ hs.1]
  simp
  exact hs.2

theorem direct_down (t : OpenState) (h : DownW t.w) :
    (runDirectOpen t).1 = .NEXT1 ∨ ((runDirectOpen t).1 = .NEXT2 ∧ (runDirectOpen t).2.w.auto_land = true) := by
  unfold runDirectOpen
  dsimp only
  generalize hv : ({ t with w := { t.w with out_goto := _ }, goto_z := _ } : OpenState) = v
  have hs : DownW (getPathMsgOpen .DIRECT v).w := DownW.same (sameW_path .DIRECT v).1 (by rw [← hv]; exact h)
  rw [altitude_down _ hs.1]
  by_cases hp : (wgSetpoint (getPathMsgOpen .DIRECT v).w.planner (getPathMsgOpen .DIRECT v).w.current_time).1 = true
  · rw [if_pos hp]; exact Or.inl rfl
  · rw [if_neg hp]; exact Or.inr ⟨rfl, rfl⟩

/-- What `altEnter` and `altTargetOpen` leave (helper). -/
theorem altTarget_downW (t : OpenState) (h : DownW t.w) : DownW (altTargetOpen { t with w := altEnter t.w }).w := by
  have he : DownW (altEnter t.w) := by unfold altEnter; split <;> exact h
  unfold altTargetOpen
  dsimp only
  split
  · exact he
  · split
    · exact he
    · split <;> exact he

/-- What the generator starts a cycle of descending from (helper). -/
theorem openStart_spec (s : OpenState) (pl : PlannerInfo) (i : WgIn) (now : ℝ) :
    (openStart s pl i now).w.planner = pl ∧ (openStart s pl i now).w.position = i.position ∧
    (openStart s pl i now).w.velocity = i.velocity ∧ (openStart s pl i now).w.nav = i.nav ∧
    (openStart s pl i now).w.is_land = i.is_land ∧ (openStart s pl i now).w.loiter = i.stay ∧
    (openStart s pl i now).w.airborne = i.airborne ∧ (openStart s pl i now).w.state_changed = s.w.state_changed ∧
    (openStart s pl i now).w.change_altitude_pos = s.w.change_altitude_pos ∧
    (openStart s pl i now).w.auto_land = s.w.auto_land ∧ (openStart s pl i now).w.desired_vel = i.desired_vel ∧
    (openStart s pl i now).w.reach_altitude_offboard = reachedBefore s.w i ∧
    (openStart s pl i now).w.smoothing_speed_xy = s.w.smoothing_speed_xy ∧
    (openStart s pl i now).w.goal.x = i.goal.x ∧ (openStart s pl i now).w.goal.y = i.goal.y := by
  unfold openStart wgStart wgUpdate reachedBefore
  rcases ha : i.airborne <;> rcases hs : s.w.smoothed_loc with _ | l <;> rcases hl : s.w.auto_land <;>
    simp [ha, hs, hl]

theorem openStart_down (s : OpenState) (pl : PlannerInfo) (i : WgIn) (now : ℝ) (h : Down i) : DownW (openStart s pl i now).w := by
  obtain ⟨-, -, -, a4, a5, a6, -⟩ := openStart_spec s pl i now
  unfold DownW
  rw [a4, a5, a6]
  exact h

/-- One cycle of descending (helper). -/
theorem down_cycle (x : PlannerState × OpenState) (pl : PlannerInfo) (i : WgIn) (now : ℝ) (h : Down i) :
    (x.1 = .LOITER → (openCycle x pl i now).1 = .TRY_PATH) ∧
    (x.1 = .TRY_PATH ∨ x.1 = .ALTITUDE_CHANGE →
      (openCycle x pl i now).1 = .ALTITUDE_CHANGE ∧ (openCycle x pl i now).2.w.auto_land = true) ∧
    (x.1 = .DIRECT → (openCycle x pl i now).1 = .TRY_PATH ∨
      ((openCycle x pl i now).1 = .ALTITUDE_CHANGE ∧ (openCycle x pl i now).2.w.auto_land = true)) := by
  rw [openCycle_eq]
  obtain ⟨st, s⟩ := x
  have hd := openStart_down s pl i now h
  dsimp only
  generalize openStart s pl i now = t at hd
  unfold Machine.iterateOnce openMachine openRun
  dsimp only
  refine ⟨?_, ?_, ?_⟩
  · rintro rfl
    rw [loiter_down t hd]
    rfl
  · rintro (rfl | rfl)
    · obtain ⟨h1, h2⟩ := try_down t hd
      dsimp only
      rw [h1, h2]
      exact ⟨rfl, rfl⟩
    · dsimp only
      rw [alt_down t hd (altTarget_downW t hd)]
      exact ⟨rfl, rfl⟩
  · rintro rfl
    dsimp only
    rcases direct_down t hd with h1 | ⟨h1, h2⟩
    · rw [h1]; exact Or.inl rfl
    · rw [h1, h2]; exact Or.inr ⟨rfl, rfl⟩


/-- The published position while landing is the smoothed location set before (helper). -/
theorem path_auto (st : PlannerState) (s : OpenState) (h : s.w.auto_land = true) :
    (getPathMsgOpen st s).w.out_position = ⟨some s.w.out_smoothed.x, some s.w.out_smoothed.y, s.smoothed_z⟩ := by
  have h0 : (nextSmoothYaw st (pathDt { s.w with out_adapted := s.w.out_goto }) { s.w with out_adapted := s.w.out_goto }).auto_land = true :=
    (sameW_yaw _ _ _).auto_land.trans h
  have h1 : (nextSmoothYaw st (pathDt { s.w with out_adapted := s.w.out_goto }) { s.w with out_adapted := s.w.out_goto }).out_smoothed = s.w.out_smoothed := by
    unfold nextSmoothYaw
    dsimp only
    split <;> rfl
  unfold getPathMsgOpen
  dsimp only
  rw [if_pos h0, h1]

/-- **C124.** Once descending, the generator goes on descending in every round in which the autopilot lands, from any such state:
it publishes the place where the vehicle is while that is horizontally fast, with horizontal velocity zero, and otherwise the place
where it stopped, with the height and the velocity that the autopilot asks for. -/
theorem alt_cycle (s : OpenState) (pl : PlannerInfo) (i : WgIn) (now : ℝ) (h : Down i) (ha : s.w.auto_land = true)
    (c : V3 ℝ) (hc : (s.w.state_changed = true ∧ c = i.position) ∨ (s.w.state_changed = false ∧ s.w.change_altitude_pos = some c)) :
    let x := openCycle (.ALTITUDE_CHANGE, s) pl i now
    let p := if FastIn i then i.position else c
    x.1 = .ALTITUDE_CHANGE ∧ x.2.w.auto_land = true ∧ x.2.w.state_changed = false ∧ x.2.w.change_altitude_pos = some p ∧
    x.2.w.out_position = ⟨some p.x, some p.y, if FastIn i then some i.position.z else none⟩ ∧
    x.2.w.out_linear_velocity = if FastIn i then ⟨some 0, some 0, none⟩ else i.desired_vel := by
  dsimp only
  rw [openCycle_eq]
  have hd := openStart_down s pl i now h
  obtain ⟨-, a2, a3, -, -, -, -, a8, a9, a10, a11, -⟩ := openStart_spec s pl i now
  dsimp only
  generalize openStart s pl i now = t at hd a2 a3 a8 a9 a10 a11
  unfold Machine.iterateOnce openMachine openRun
  dsimp only
  rw [alt_down t hd (altTarget_downW t hd)]
  dsimp only
  have hn : ¬ (altEnter t.w).nav = .offboard := by
    have : (altEnter t.w).nav = t.w.nav := by unfold altEnter; split <;> rfl
    rw [this]
    rcases hd.1 with e | ⟨e, -⟩ | e <;> rw [e] <;> decide
  have e1 : (altEnter t.w).change_altitude_pos = some c := by
    unfold altEnter
    rcases hc with ⟨e, rfl⟩ | ⟨e, e'⟩
    · rw [if_pos (by rw [a8]; exact e)]; simp [a2]
    · rw [if_neg (by rw [a8, e]; simp)]; exact a9.trans e'
  have e2 : (altEnter t.w).position = i.position := by unfold altEnter; split <;> exact a2
  have e3 : (altEnter t.w).velocity = i.velocity := by unfold altEnter; split <;> exact a3
  have e4 : (altEnter t.w).auto_land = true := by
    have : (altEnter t.w).auto_land = t.w.auto_land := by unfold altEnter; split <;> rfl
    rw [this, a10]; exact ha
  have e5 : (altEnter t.w).desired_vel = i.desired_vel := by
    have : (altEnter t.w).desired_vel = t.w.desired_vel := by unfold altEnter; split <;> rfl
    rw [this, a11]
  have hg : altTargetOpen { t with w := altEnter t.w } = if FastIn i then
      { w := { altEnter t.w with
          out_linear_velocity := ⟨some 0, some 0, none⟩, out_position := ⟨none, none, some i.position.z⟩, out_goto := i.position
          out_adapted := i.position, out_smoothed := i.position, change_altitude_pos := some i.position }
        goto_z := some i.position.z, adapted_z := some i.position.z, smoothed_z := some i.position.z }
      else
      { w := { altEnter t.w with
          out_goto := ⟨c.x, c.y, 0⟩, out_linear_velocity := i.desired_vel, out_adapted := ⟨c.x, c.y, 0⟩, out_smoothed := ⟨c.x, c.y, 0⟩ }
        goto_z := none, adapted_z := none, smoothed_z := none } := by
    unfold altTargetOpen FastIn
    dsimp only
    rw [if_neg hn, e2, e3, e1, e4, e5]
    rfl
  rw [hg]
  refine ⟨rfl, rfl, rfl, ?_, ?_, ?_⟩
  · rw [(sameW_path _ _).1.change]
    by_cases hf : FastIn i
    · rw [if_pos hf, if_pos hf]
    · rw [if_neg hf, if_neg hf]; exact e1
  · rw [path_auto _ _ (by split_ifs <;> exact e4)]
    by_cases hf : FastIn i
    · rw [if_pos hf, if_pos hf, if_pos hf]
    · rw [if_neg hf, if_neg hf, if_neg hf]
  · rw [(sameW_path _ _).1.lin]
    by_cases hf : FastIn i
    · rw [if_pos hf, if_pos hf]
    · rw [if_neg hf, if_neg hf]

theorem openRunAll_append (x : PlannerState × OpenState) (l l' : List (PlannerInfo × WgIn × ℝ)) :
    openRunAll x (l ++ l') = openRunAll (openRunAll x l) l' := by
  induction l generalizing x with
  | nil => rfl
  | cons a l ih => obtain ⟨pl, i, now⟩ := a; exact ih _

/-- **C124 (partial: offboard mode is not among the modes, see `C124_offboard_descends_violated`).** In whatever state the
generator is, after two rounds in which the autopilot lands or returns with an open height it is descending. -/
theorem C124_enters_partial (x : PlannerState × OpenState) (pl pl' : PlannerInfo) (i i' : WgIn) (now now' : ℝ)
    (h : Down i) (h' : Down i') :
    (openRunAll x [(pl, i, now), (pl', i', now')]).1 = .ALTITUDE_CHANGE ∧
    (openRunAll x [(pl, i, now), (pl', i', now')]).2.w.auto_land = true := by
  show (openCycle (openCycle x pl i now) pl' i' now').1 = _ ∧ (openCycle (openCycle x pl i now) pl' i' now').2.w.auto_land = true
  obtain ⟨a1, a2, a3⟩ := down_cycle x pl i now h
  obtain ⟨-, b2, -⟩ := down_cycle (openCycle x pl i now) pl' i' now' h'
  refine b2 ?_
  rcases hx : x.1 with _ | _ | _ | _
  · exact Or.inr (a2 (Or.inl hx)).1
  · exact Or.inr (a2 (Or.inr hx)).1
  · exact Or.inl (a1 hx)
  · exact (a3 hx).imp id And.left

theorem held_run (l : List (PlannerInfo × WgIn × ℝ)) : ∀ (s : OpenState) (c : V3 ℝ), (∀ r ∈ l, Down r.2.1) →
    s.w.auto_land = true → s.w.state_changed = false → s.w.change_altitude_pos = some c →
    ∃ s', openRunAll (.ALTITUDE_CHANGE, s) l = (.ALTITUDE_CHANGE, s') ∧ s'.w.auto_land = true ∧ s'.w.state_changed = false ∧
      s'.w.change_altitude_pos = some (heldPlace c l) := by
  induction l with
  | nil => exact fun s c _ h1 h2 h3 => ⟨s, rfl, h1, h2, h3⟩
  | cons a l ih =>
    obtain ⟨pl, i, now⟩ := a
    intro s c h h1 h2 h3
    obtain ⟨b1, b2, b3, b4, -⟩ := alt_cycle s pl i now (h _ (List.mem_cons_self ..)) h1 c (Or.inr ⟨h2, h3⟩)
    obtain ⟨s', e, r⟩ := ih (openCycle (.ALTITUDE_CHANGE, s) pl i now).2 _ (fun r hr => h r (List.mem_cons_of_mem _ hr)) b2 b3 b4
    refine ⟨s', ?_, r⟩
    have hp : openCycle (.ALTITUDE_CHANGE, s) pl i now = (.ALTITUDE_CHANGE, (openCycle (.ALTITUDE_CHANGE, s) pl i now).2) := Prod.ext b1 rfl
    show openRunAll (openCycle (.ALTITUDE_CHANGE, s) pl i now) l = _
    rw [hp]
    exact e

/-- **C124 (partial: offboard mode is not among the modes, see `C124_offboard_descends_violated`).** Once descending, the
generator goes on descending for as many rounds as the autopilot lands or returns with an open height.  In each it publishes the
place where the vehicle is while that is horizontally fast, with horizontal velocity zero; otherwise the place where the vehicle
was when it began to descend or was last fast, with open height and the velocity that the autopilot asks for. -/
theorem C124_lands_partial (s : OpenState) (c : V3 ℝ) (l : List (PlannerInfo × WgIn × ℝ)) (pl : PlannerInfo) (i : WgIn) (now : ℝ)
    (h : ∀ r ∈ l ++ [(pl, i, now)], Down r.2.1) (ha : s.w.auto_land = true)
    (hc : (s.w.state_changed = true ∧ ∃ r ∈ (l ++ [(pl, i, now)]).head?, c = r.2.1.position) ∨
      (s.w.state_changed = false ∧ s.w.change_altitude_pos = some c)) :
    let x := openRunAll (.ALTITUDE_CHANGE, s) (l ++ [(pl, i, now)])
    x.1 = .ALTITUDE_CHANGE ∧
    (FastIn i → x.2.w.out_position = i.position.fin ∧ x.2.w.out_linear_velocity = ⟨some 0, some 0, none⟩) ∧
    (¬ FastIn i → x.2.w.out_position = ⟨some (heldPlace c l).x, some (heldPlace c l).y, none⟩ ∧
      x.2.w.out_linear_velocity = i.desired_vel) := by
  have key : ∀ s' : OpenState, s'.w.auto_land = true → ∀ c', ((s'.w.state_changed = true ∧ c' = i.position) ∨
      (s'.w.state_changed = false ∧ s'.w.change_altitude_pos = some c')) →
      let x := openCycle (.ALTITUDE_CHANGE, s') pl i now
      x.1 = .ALTITUDE_CHANGE ∧
      (FastIn i → x.2.w.out_position = i.position.fin ∧ x.2.w.out_linear_velocity = ⟨some 0, some 0, none⟩) ∧
      (¬ FastIn i → x.2.w.out_position = ⟨some c'.x, some c'.y, none⟩ ∧ x.2.w.out_linear_velocity = i.desired_vel) := by
    intro s' h1 c' h2
    obtain ⟨b1, -, -, -, b5, b6⟩ := alt_cycle s' pl i now (h (pl, i, now) (by simp)) h1 c' h2
    refine ⟨b1, fun hf => ?_, fun hf => ?_⟩
    · rw [b5, b6, if_pos hf, if_pos hf, if_pos hf]; exact ⟨rfl, rfl⟩
    · rw [b5, b6, if_neg hf, if_neg hf, if_neg hf]; exact ⟨rfl, rfl⟩
  cases l with
  | nil =>
    refine key s ha c (hc.imp (fun ⟨e, r, hr, e'⟩ => ⟨e, ?_⟩) id)
    simp at hr
    rw [e', ← hr]
  | cons a l =>
    obtain ⟨pl0, i0, now0⟩ := a
    obtain ⟨b1, b2, b3, b4, -⟩ := alt_cycle s pl0 i0 now0 (h (pl0, i0, now0) (by simp)) ha c (hc.imp (fun ⟨e, r, hr, e'⟩ => ⟨e, by
      simp at hr; rw [e', ← hr]⟩) id)
    obtain ⟨s', e, d1, d2, d3⟩ := held_run l (openCycle (.ALTITUDE_CHANGE, s) pl0 i0 now0).2 _
      (fun r hr => h r (by simp [hr])) b2 b3 b4
    have := key s' d1 _ (Or.inr ⟨d2, d3⟩)
    rw [openRunAll_append]
    have e' : openRunAll (.ALTITUDE_CHANGE, s) ((pl0, i0, now0) :: l) = (.ALTITUDE_CHANGE, s') := by
      have hp : openCycle (.ALTITUDE_CHANGE, s) pl0 i0 now0 = (.ALTITUDE_CHANGE, (openCycle (.ALTITUDE_CHANGE, s) pl0 i0 now0).2) := Prod.ext b1 rfl
      show openRunAll (openCycle (.ALTITUDE_CHANGE, s) pl0 i0 now0) l = _
      rw [hp]
      exact e
    rw [e']
    exact this

/-- The published position without smoothing, not landing (helper). -/
theorem path_manual (st : PlannerState) (s : OpenState) (h : s.w.auto_land = false) (hs : s.w.smoothing_speed_xy < 1 / 100) :
    ∃ w : WgState, ∃ dt : ℝ, 0 < dt ∧ dt = pathDt s.w ∧ w.position = s.w.position ∧ w.out_goto = s.w.out_goto ∧ w.speed = s.w.speed ∧
      w.planner = s.w.planner ∧ w.fovs = s.w.fovs ∧
      (let u := adaptSpeedOpen st dt ⟨w, s.goto_z, s.goto_z, s.smoothed_z⟩
       (getPathMsgOpen st s).w.out_position = ⟨some u.w.out_adapted.x, some u.w.out_adapted.y, u.adapted_z⟩ ∧
       (getPathMsgOpen st s).w.speed = u.w.speed) := by
  have hdt : 0 < pathDt { s.w with out_adapted := s.w.out_goto } := by
    unfold pathDt
    split_ifs with h0
    · exact h0
    · norm_num
  generalize hd : pathDt { s.w with out_adapted := s.w.out_goto } = dt at hdt
  have hd' : dt = pathDt s.w := hd.symm
  have h0 : SameW (nextSmoothYaw st dt { s.w with out_adapted := s.w.out_goto }) s.w := (sameW_yaw _ _ _).trans (by constructor <;> rfl)
  have h1 : (nextSmoothYaw st dt { s.w with out_adapted := s.w.out_goto }).position = s.w.position ∧
      (nextSmoothYaw st dt { s.w with out_adapted := s.w.out_goto }).speed = s.w.speed ∧
      (nextSmoothYaw st dt { s.w with out_adapted := s.w.out_goto }).fovs = s.w.fovs := by
    unfold nextSmoothYaw
    dsimp only
    split <;> exact ⟨rfl, rfl, rfl⟩
  refine ⟨nextSmoothYaw st dt { s.w with out_adapted := s.w.out_goto }, dt, hdt, hd', h1.1, h0.goto_, h1.2.1, h0.planner, h1.2.2, ?_⟩
  have e : getPathMsgOpen st s = { smoothWaypointOpen dt (adaptSpeedOpen st dt ⟨nextSmoothYaw st dt { s.w with out_adapted := s.w.out_goto }, s.goto_z, s.goto_z, s.smoothed_z⟩) with
      w := { (smoothWaypointOpen dt (adaptSpeedOpen st dt ⟨nextSmoothYaw st dt { s.w with out_adapted := s.w.out_goto }, s.goto_z, s.goto_z, s.smoothed_z⟩)).w with
        out_position := ⟨some (smoothWaypointOpen dt (adaptSpeedOpen st dt ⟨nextSmoothYaw st dt { s.w with out_adapted := s.w.out_goto }, s.goto_z, s.goto_z, s.smoothed_z⟩)).w.out_smoothed.x,
          some (smoothWaypointOpen dt (adaptSpeedOpen st dt ⟨nextSmoothYaw st dt { s.w with out_adapted := s.w.out_goto }, s.goto_z, s.goto_z, s.smoothed_z⟩)).w.out_smoothed.y,
          (smoothWaypointOpen dt (adaptSpeedOpen st dt ⟨nextSmoothYaw st dt { s.w with out_adapted := s.w.out_goto }, s.goto_z, s.goto_z, s.smoothed_z⟩)).smoothed_z⟩ } } := by
    unfold getPathMsgOpen
    dsimp only
    rw [hd, if_neg (by rw [h0.auto_land, h]; simp)]
  dsimp only
  rw [e]
  have hsx := (sameW_speed st dt ⟨nextSmoothYaw st dt { s.w with out_adapted := s.w.out_goto }, s.goto_z, s.goto_z, s.smoothed_z⟩).1.sxy.trans h0.sxy
  generalize adaptSpeedOpen st dt ⟨nextSmoothYaw st dt { s.w with out_adapted := s.w.out_goto }, s.goto_z, s.goto_z, s.smoothed_z⟩ = u at hsx
  have e2 : smoothWaypointOpen dt u = { u with w := { u.w with out_smoothed := u.w.out_adapted }, smoothed_z := u.adapted_z } := by
    unfold smoothWaypointOpen
    rw [if_pos (Or.inl (by rw [hsx]; exact hs))]
  rw [e2]
  exact ⟨rfl, rfl⟩

/-- A direct approach in one cycle (helper). -/
theorem direct_out (t : OpenState) (h : t.w.auto_land = false) (hs : t.w.smoothing_speed_xy < 1 / 100) :
    let v := (runDirectOpen t).2
    v.w.out_position = ⟨some (t.w.position.x + v.w.speed * (t.w.goal.x - t.w.position.x)),
      some (t.w.position.y + v.w.speed * (t.w.goal.y - t.w.position.y)), none⟩ := by
  have key : ∀ v : OpenState, v.w.out_position = (getPathMsgOpen .DIRECT
      { t with w := { t.w with out_goto := ⟨t.w.position.x + (t.w.goal.x - t.w.position.x), t.w.position.y + (t.w.goal.y - t.w.position.y), 0⟩ }, goto_z := none }).w.out_position →
      v.w.speed = (getPathMsgOpen .DIRECT
      { t with w := { t.w with out_goto := ⟨t.w.position.x + (t.w.goal.x - t.w.position.x), t.w.position.y + (t.w.goal.y - t.w.position.y), 0⟩ }, goto_z := none }).w.speed →
      v.w.out_position = ⟨some (t.w.position.x + v.w.speed * (t.w.goal.x - t.w.position.x)),
      some (t.w.position.y + v.w.speed * (t.w.goal.y - t.w.position.y)), none⟩ := by
    intro v h1 h2
    obtain ⟨w, dt, -, -, p1, p2, -, -, -, p3, p4⟩ := path_manual .DIRECT
      { t with w := { t.w with out_goto := ⟨t.w.position.x + (t.w.goal.x - t.w.position.x), t.w.position.y + (t.w.goal.y - t.w.position.y), 0⟩ }, goto_z := none } h hs
    rw [h1, h2, p3, p4]
    have e : ∀ w : WgState, w.position = t.w.position →
        w.out_goto = ⟨t.w.position.x + (t.w.goal.x - t.w.position.x), t.w.position.y + (t.w.goal.y - t.w.position.y), 0⟩ →
        let u := adaptSpeedOpen .DIRECT dt ⟨w, none, none, t.smoothed_z⟩
        (⟨some u.w.out_adapted.x, some u.w.out_adapted.y, u.adapted_z⟩ : V3 (Option ℝ)) =
        ⟨some (t.w.position.x + u.w.speed * (t.w.goal.x - t.w.position.x)),
          some (t.w.position.y + u.w.speed * (t.w.goal.y - t.w.position.y)), none⟩ := by
      intro w q1 q2
      unfold adaptSpeedOpen
      dsimp only
      rw [q1, q2]
      dsimp only
      simp
    exact e w p1 p2
  dsimp only
  unfold runDirectOpen
  dsimp only
  have alt : ∀ w : WgState, (isAltitudeChangeOpen w).2.out_position = w.out_position ∧ (isAltitudeChangeOpen w).2.speed = w.speed := by
    intro w
    unfold isAltitudeChangeOpen
    dsimp only
    split <;> exact ⟨rfl, rfl⟩
  split_ifs <;> first | exact key _ rfl rfl | exact key _ (alt _).1 (alt _).2

/-- **C124 (violated: with an open height the approach may lead beyond the goal).** Flying directly to a goal with open height
(without smoothing), the generator publishes the point that is `speed` times the horizontal way to the goal ahead, however far
away that is: beyond the goal whenever the speed is above one. -/
theorem C124_direct_beyond_violated (s : OpenState) (pl : PlannerInfo) (i : WgIn) (now : ℝ) (ha : s.w.auto_land = false)
    (hs : s.w.smoothing_speed_xy < 1 / 100) :
    let v := (openCycle (.DIRECT, s) pl i now).2.w
    v.out_position = ⟨some (i.position.x + v.speed * (i.goal.x - i.position.x)), some (i.position.y + v.speed * (i.goal.y - i.position.y)), none⟩ := by
  dsimp only
  rw [openCycle_eq]
  obtain ⟨-, a2, -, -, -, -, -, -, -, a10, -, -, a13, a14, a15⟩ := openStart_spec s pl i now
  have := direct_out (openStart s pl i now) (a10.trans ha) (by rw [a13]; exact hs)
  dsimp only at this
  rw [a2, a14, a15] at this
  exact this

/-- One cycle of offboard mode with an open height (helper). -/
theorem offboard_cycle (s : OpenState) (pl : PlannerInfo) (i : WgIn) (now : ℝ) (h : OffboardIn i) (ha : s.w.auto_land = false)
    (hr : s.w.reach_altitude_offboard = false) (hs : s.w.smoothing_speed_xy < 1 / 100) (hv : 0 ≤ s.w.speed)
    (hp : 0 < pl.cruise_velocity.getD 2) :
    let x := openCycle (.ALTITUDE_CHANGE, s) pl i now
    x.1 = .ALTITUDE_CHANGE ∧ x.2.w.auto_land = false ∧ x.2.w.reach_altitude_offboard = false ∧
    x.2.w.smoothing_speed_xy < 1 / 100 ∧ 0 < x.2.w.speed ∧
    x.2.w.out_position = ⟨some i.position.x, some i.position.y, some (i.position.z - x.2.w.speed)⟩ := by
  dsimp only
  rw [openCycle_eq]
  have hv' : (openStart s pl i now).w.speed = s.w.speed := by
    obtain ⟨-, -, -, -, -, -, -, -, -, -, -, -, -, -, -, -, -, b, -⟩ := wgStart_spec { s.w with planner := pl } { i with goal := ⟨i.goal.x, i.goal.y, 0⟩ } now
    exact b
  obtain ⟨a1, a2, a3, a4, a5, a6, a7, a8, a9, a10, a11, a12, a13, -⟩ := openStart_spec s pl i now
  dsimp only
  generalize openStart s pl i now = t at a1 a2 a3 a4 a5 a6 a7 a8 a9 a10 a11 a12 a13 hv'
  have hr' : t.w.reach_altitude_offboard = false := by
    rw [a12]; unfold reachedBefore; rw [hr]; simp
  have he : ∃ y c, altEnter t.w = { t.w with yaw_reach_height := y, change_altitude_pos := c } := by
    unfold altEnter
    split
    · exact ⟨_, _, rfl⟩
    · exact ⟨t.w.yaw_reach_height, t.w.change_altitude_pos, rfl⟩
  obtain ⟨y, c, he⟩ := he
  have hg : altTargetOpen { t with w := altEnter t.w } =
      { t with w := { t.w with yaw_reach_height := y, change_altitude_pos := c, goal := ⟨i.position.x, i.position.y, 0⟩, out_goto := ⟨i.position.x, i.position.y, i.position.z - 1⟩ }, goto_z := some (i.position.z - 1) } := by
    rw [he]
    unfold altTargetOpen
    dsimp only
    rw [if_pos (a4.trans h.1), if_pos (a7.trans h.2.1), a2]
  have hrun : ∀ u, altTargetOpen { t with w := altEnter t.w } = u → (getPathMsgOpen .ALTITUDE_CHANGE u).w.loiter = false →
      isAltitudeChangeOpen (getPathMsgOpen .ALTITUDE_CHANGE u).w = (true, { (getPathMsgOpen .ALTITUDE_CHANGE u).w with auto_land := false }) →
      runAltitudeChangeOpen t = (.REPEAT, { getPathMsgOpen .ALTITUDE_CHANGE u with w := { (getPathMsgOpen .ALTITUDE_CHANGE u).w with auto_land := false } }) := by
    intro u e1 e2 e3
    unfold runAltitudeChangeOpen
    dsimp only
    rw [e1, e2, e3]
    simp
    exact e2
  generalize hu : ({ t with w := { t.w with yaw_reach_height := y, change_altitude_pos := c, goal := ⟨i.position.x, i.position.y, 0⟩, out_goto := ⟨i.position.x, i.position.y, i.position.z - 1⟩ }, goto_z := some (i.position.z - 1) } : OpenState) = u at hg
  have f := (sameW_path .ALTITUDE_CHANGE u).1
  have u1 : u.w.auto_land = false := by rw [← hu]; exact a10.trans ha
  have u2 : u.w.smoothing_speed_xy < 1 / 100 := by rw [← hu]; show t.w.smoothing_speed_xy < _; rw [a13]; exact hs
  obtain ⟨w, dt, hdt, -, p1, p2, p3, p4, -, p5, p6⟩ := path_manual .ALTITUDE_CHANGE u u1 u2
  have n1 : (getPathMsgOpen .ALTITUDE_CHANGE u).w.loiter = false := by rw [f.loiter, ← hu]; exact a6.trans h.2.2
  have n2 : isAltitudeChangeOpen (getPathMsgOpen .ALTITUDE_CHANGE u).w = (true, { (getPathMsgOpen .ALTITUDE_CHANGE u).w with auto_land := false }) :=
    altitude_offboard _ (by rw [f.nav, ← hu]; exact a4.trans h.1) (by rw [f.reach, ← hu]; exact hr')
  unfold Machine.iterateOnce openMachine openRun
  dsimp only
  rw [hrun u hg n1 n2]
  have e3 : u.goto_z = some (i.position.z - 1) := by rw [← hu]
  have q1 : w.position = i.position := by rw [p1, ← hu]; exact a2
  have q2 : w.out_goto = ⟨i.position.x, i.position.y, i.position.z - 1⟩ := by rw [p2, ← hu]
  have q3 : w.speed = s.w.speed := by rw [p3, ← hu]; exact hv'
  have q4 : w.planner = pl := by rw [p4, ← hu]; exact a1
  rw [e3] at p5 p6
  have ee : ∀ w : WgState, w.position = i.position → w.out_goto = ⟨i.position.x, i.position.y, i.position.z - 1⟩ → w.speed = s.w.speed →
      w.planner = pl →
      let a := adaptSpeedOpen .ALTITUDE_CHANGE dt ⟨w, some (i.position.z - 1), some (i.position.z - 1), u.smoothed_z⟩
      0 < a.w.speed ∧ (⟨some a.w.out_adapted.x, some a.w.out_adapted.y, a.adapted_z⟩ : V3 (Option ℝ)) =
        ⟨some i.position.x, some i.position.y, some (i.position.z - a.w.speed)⟩ := by
    intro w q1 q2 q3 q4
    have hn : (V3.minus ⟨i.position.x, i.position.y, i.position.z - 1⟩ i.position : V3 ℝ) = ⟨0, 0, -1⟩ := by
      unfold V3.minus; congr 1 <;> ring
    have hm : (⟨0, 0, -1⟩ : V3 ℝ).norm = 1 := by
      unfold V3.norm V3.dot; norm_num
    unfold adaptSpeedOpen
    dsimp only
    rw [q1, q2, q3, q4]
    dsimp only
    rw [hn, hm]
    have hal : 0 < dt / (9 / 10 + dt) := by positivity
    have hal' : dt / (9 / 10 + dt) ≤ 1 := by rw [div_le_one (by linarith)]; linarith
    constructor
    · simp only [ne_eq, not_true_eq_false, if_false, mul_one]
      have := mul_pos hal hp
      have := mul_nonneg (sub_nonneg.mpr hal') hv
      linarith
    · simp only [ne_eq, not_true_eq_false, if_false, mul_one]
      rw [if_pos (by norm_num)]
      unfold V3.normalized
      simp [V3.norm, V3.dot, V3.plus, V3.smul]
      ring
  obtain ⟨r1, r2⟩ := ee w q1 q2 q3 q4
  refine ⟨rfl, rfl, ?_, ?_, ?_, ?_⟩
  · simp [f.reach]; rw [← hu]; exact hr'
  · simp [f.sxy]; rw [← hu]; show t.w.smoothing_speed_xy < _; rw [a13]; exact (by simpa using hs)
  · show 0 < (getPathMsgOpen .ALTITUDE_CHANGE u).w.speed
    rw [p6]; exact r1
  · show (getPathMsgOpen .ALTITUDE_CHANGE u).w.out_position = ⟨some i.position.x, some i.position.y, some (i.position.z - (getPathMsgOpen .ALTITUDE_CHANGE u).w.speed)⟩
    rw [p5, p6]; exact r2

theorem offboard_run (l : List (PlannerInfo × WgIn × ℝ)) : ∀ s : OpenState, (∀ r ∈ l, OffboardIn r.2.1 ∧ 0 < r.1.cruise_velocity.getD 2) →
    s.w.auto_land = false → s.w.reach_altitude_offboard = false → s.w.smoothing_speed_xy < 1 / 100 → 0 ≤ s.w.speed →
    ∃ s', openRunAll (.ALTITUDE_CHANGE, s) l = (.ALTITUDE_CHANGE, s') ∧ s'.w.auto_land = false ∧
      s'.w.reach_altitude_offboard = false ∧ s'.w.smoothing_speed_xy < 1 / 100 ∧ 0 ≤ s'.w.speed := by
  induction l with
  | nil => exact fun s _ h1 h2 h3 h4 => ⟨s, rfl, h1, h2, h3, h4⟩
  | cons a l ih =>
    obtain ⟨pl, i, now⟩ := a
    intro s h h1 h2 h3 h4
    obtain ⟨hi, hp⟩ := h (pl, i, now) (List.mem_cons_self ..)
    obtain ⟨b1, b2, b3, b4, b5, -⟩ := offboard_cycle s pl i now hi h1 h2 h3 h4 hp
    obtain ⟨s', e, r⟩ := ih (openCycle (.ALTITUDE_CHANGE, s) pl i now).2 (fun r hr => h r (List.mem_cons_of_mem _ hr)) b2 b3 b4 b5.le
    refine ⟨s', ?_, r⟩
    have hp : openCycle (.ALTITUDE_CHANGE, s) pl i now = (.ALTITUDE_CHANGE, (openCycle (.ALTITUDE_CHANGE, s) pl i now).2) := Prod.ext b1 rfl
    show openRunAll (openCycle (.ALTITUDE_CHANGE, s) pl i now) l = _
    rw [hp]
    exact e

/-- The speed of a direct approach without a camera (helper). -/
theorem direct_speed (t : OpenState) (h : t.w.auto_land = false) (hs : t.w.smoothing_speed_xy < 1 / 100) (hf : t.w.fovs = []) :
    (runDirectOpen t).2.w.speed = (1 - pathDt t.w / (9 / 10 + pathDt t.w)) * t.w.speed := by
  have key : ∀ v : OpenState, v.w.speed = (getPathMsgOpen .DIRECT
      { t with w := { t.w with out_goto := ⟨t.w.position.x + (t.w.goal.x - t.w.position.x), t.w.position.y + (t.w.goal.y - t.w.position.y), 0⟩ }, goto_z := none }).w.speed →
      v.w.speed = (1 - pathDt t.w / (9 / 10 + pathDt t.w)) * t.w.speed := by
    intro v h2
    obtain ⟨w, dt, -, hd, -, -, p3, -, p5, -, p4⟩ := path_manual .DIRECT
      { t with w := { t.w with out_goto := ⟨t.w.position.x + (t.w.goal.x - t.w.position.x), t.w.position.y + (t.w.goal.y - t.w.position.y), 0⟩ }, goto_z := none } h hs
    rw [h2, p4]
    have hd' : dt = pathDt t.w := hd
    have q3 : w.speed = t.w.speed := p3
    have q5 : w.fovs = [] := p5.trans hf
    unfold adaptSpeedOpen
    dsimp only
    rw [q5, q3, hd']
    have e : ∀ p : PolarPoint ℝ, scaleToFOV ([] : List (FOV ℝ)) p = some 0 := fun _ => rfl
    rw [e]
    simp
  unfold runDirectOpen
  dsimp only
  have alt : ∀ w : WgState, (isAltitudeChangeOpen w).2.speed = w.speed := by
    intro w
    unfold isAltitudeChangeOpen
    dsimp only
    split <;> rfl
  split_ifs <;> first | exact key _ rfl | exact key _ (alt _)

/-- **C124 (violated: in offboard mode an open height means descending for ever).** In offboard mode, in the air, the generator
that adjusts the altitude (without smoothing) never reaches a goal with open height: however many rounds go by, it stays in that
state and publishes a point straight below the vehicle. -/
theorem C124_offboard_descends_violated (s : OpenState) (l : List (PlannerInfo × WgIn × ℝ)) (pl : PlannerInfo) (i : WgIn) (now : ℝ)
    (h : ∀ r ∈ l ++ [(pl, i, now)], OffboardIn r.2.1 ∧ 0 < r.1.cruise_velocity.getD 2)
    (ha : s.w.auto_land = false) (hr : s.w.reach_altitude_offboard = false) (hs : s.w.smoothing_speed_xy < 1 / 100) (hv : 0 ≤ s.w.speed) :
    (openRunAll (.ALTITUDE_CHANGE, s) (l ++ [(pl, i, now)])).1 = .ALTITUDE_CHANGE ∧
    ∃ z < i.position.z,
      (openRunAll (.ALTITUDE_CHANGE, s) (l ++ [(pl, i, now)])).2.w.out_position = ⟨some i.position.x, some i.position.y, some z⟩ := by
  obtain ⟨s', e, h1, h2, h3, h4⟩ := offboard_run l s (fun r hr => h r (List.mem_append_left _ hr)) ha hr hs hv
  obtain ⟨hi, hp⟩ := h (pl, i, now) (by simp)
  obtain ⟨b1, -, -, -, b5, b6⟩ := offboard_cycle s' pl i now hi h1 h2 h3 h4 hp
  rw [openRunAll_append, e]
  exact ⟨b1, _, by linarith, b6⟩

/-- One cycle of offboard mode with an open height, with or without smoothing (helper). -/
theorem offboard_target (s : OpenState) (pl : PlannerInfo) (i : WgIn) (now : ℝ) (h : OffboardIn i)
    (hr : s.w.reach_altitude_offboard = false) :
    let x := openCycle (.ALTITUDE_CHANGE, s) pl i now
    x.1 = .ALTITUDE_CHANGE ∧ x.2.w.reach_altitude_offboard = false ∧ x.2.w.out_goto.x = i.position.x ∧ x.2.w.out_goto.y = i.position.y ∧
    x.2.goto_z = some (i.position.z - 1) := by
  dsimp only
  rw [openCycle_eq]
  obtain ⟨-, a2, -, a4, -, a6, a7, -, -, -, -, a12, -, -⟩ := openStart_spec s pl i now
  dsimp only
  generalize openStart s pl i now = t at a2 a4 a6 a7 a12
  have hr' : t.w.reach_altitude_offboard = false := by
    rw [a12]; unfold reachedBefore; rw [hr]; simp
  have he : ∃ y c, altEnter t.w = { t.w with yaw_reach_height := y, change_altitude_pos := c } := by
    unfold altEnter
    split
    · exact ⟨_, _, rfl⟩
    · exact ⟨t.w.yaw_reach_height, t.w.change_altitude_pos, rfl⟩
  obtain ⟨y, c, he⟩ := he
  have hg : altTargetOpen { t with w := altEnter t.w } =
      { t with w := { t.w with yaw_reach_height := y, change_altitude_pos := c, goal := ⟨i.position.x, i.position.y, 0⟩, out_goto := ⟨i.position.x, i.position.y, i.position.z - 1⟩ }, goto_z := some (i.position.z - 1) } := by
    rw [he]
    unfold altTargetOpen
    dsimp only
    rw [if_pos (a4.trans h.1), if_pos (a7.trans h.2.1), a2]
  generalize hu : ({ t with w := { t.w with yaw_reach_height := y, change_altitude_pos := c, goal := ⟨i.position.x, i.position.y, 0⟩, out_goto := ⟨i.position.x, i.position.y, i.position.z - 1⟩ }, goto_z := some (i.position.z - 1) } : OpenState) = u at hg
  obtain ⟨f, f2⟩ := sameW_path .ALTITUDE_CHANGE u
  have n1 : (getPathMsgOpen .ALTITUDE_CHANGE u).w.loiter = false := by rw [f.loiter, ← hu]; exact a6.trans h.2.2
  have n2 : isAltitudeChangeOpen (getPathMsgOpen .ALTITUDE_CHANGE u).w = (true, { (getPathMsgOpen .ALTITUDE_CHANGE u).w with auto_land := false }) :=
    altitude_offboard _ (by rw [f.nav, ← hu]; exact a4.trans h.1) (by rw [f.reach, ← hu]; exact hr')
  have hrun : runAltitudeChangeOpen t = (.REPEAT, { getPathMsgOpen .ALTITUDE_CHANGE u with w := { (getPathMsgOpen .ALTITUDE_CHANGE u).w with auto_land := false } }) := by
    unfold runAltitudeChangeOpen
    dsimp only
    rw [hg, n1, n2]
    simp
    exact n1
  unfold Machine.iterateOnce openMachine openRun
  dsimp only
  rw [hrun]
  refine ⟨rfl, ?_, ?_, ?_, ?_⟩
  · simp [f.reach]; rw [← hu]; exact hr'
  · simp [f.goto_]; rw [← hu]
  · simp [f.goto_]; rw [← hu]
  · simp [f2]; rw [← hu]

/-- **C124 (violated: in offboard mode an open height means descending for ever, also with smoothing).** In offboard mode, in the
air, the generator that adjusts the altitude never reaches a goal with open height: whatever the smoothing, the plans, and the speeds,
and however many rounds go by, it stays in that state, heading for the point one metre below the vehicle. -/
theorem C124_offboard_never_reached_violated (s : OpenState) (l : List (PlannerInfo × WgIn × ℝ)) (pl : PlannerInfo) (i : WgIn) (now : ℝ)
    (h : ∀ r ∈ l ++ [(pl, i, now)], OffboardIn r.2.1) (hr : s.w.reach_altitude_offboard = false) :
    let x := openRunAll (.ALTITUDE_CHANGE, s) (l ++ [(pl, i, now)])
    x.1 = .ALTITUDE_CHANGE ∧ x.2.w.out_goto.x = i.position.x ∧ x.2.w.out_goto.y = i.position.y ∧ x.2.goto_z = some (i.position.z - 1) := by
  have key : ∀ (l : List (PlannerInfo × WgIn × ℝ)) (s : OpenState), (∀ r ∈ l, OffboardIn r.2.1) → s.w.reach_altitude_offboard = false →
      ∃ s', openRunAll (.ALTITUDE_CHANGE, s) l = (.ALTITUDE_CHANGE, s') ∧ s'.w.reach_altitude_offboard = false := by
    intro l
    induction l with
    | nil => exact fun s _ h1 => ⟨s, rfl, h1⟩
    | cons a l ih =>
      obtain ⟨pl, i, now⟩ := a
      intro s h h1
      obtain ⟨b1, b2, -⟩ := offboard_target s pl i now (h (pl, i, now) (List.mem_cons_self ..)) h1
      obtain ⟨s', e, r⟩ := ih (openCycle (.ALTITUDE_CHANGE, s) pl i now).2 (fun r hr => h r (List.mem_cons_of_mem _ hr)) b2
      refine ⟨s', ?_, r⟩
      have hp : openCycle (.ALTITUDE_CHANGE, s) pl i now = (.ALTITUDE_CHANGE, (openCycle (.ALTITUDE_CHANGE, s) pl i now).2) := Prod.ext b1 rfl
      show openRunAll (openCycle (.ALTITUDE_CHANGE, s) pl i now) l = _
      rw [hp]
      exact e
  obtain ⟨s', e, h1⟩ := key l s (fun r hr => h r (List.mem_append_left _ hr)) hr
  obtain ⟨b1, -, b3, b4, b5⟩ := offboard_target s' pl i now (h (pl, i, now) (by simp)) h1
  dsimp only
  rw [openRunAll_append, e]
  exact ⟨b1, b3, b4, b5⟩

/-- Specification: in this round the vehicle hovers in a mission, on the way to an ordinary waypoint, and the planner has no path. -/
def HoversIn (pl : PlannerInfo) (i : WgIn) : Prop :=
  i.nav = .mission ∧ i.is_land = false ∧ i.is_takeoff = false ∧ i.stay = false ∧ i.airborne = true ∧ i.velocity = ⟨0, 0, 0⟩ ∧ pl.path = []

/-- The generator smooths, and the smoothed location `loc` stands still (helper). -/
def StandsAt (loc : V3 ℝ) (s : WgState) : Prop :=
  s.auto_land = false ∧ ¬ (s.smoothing_speed_xy < 1 / 100 ∨ s.smoothing_speed_z < 1 / 100) ∧ s.smoothed_loc = some loc ∧ s.smoothed_vel = ⟨0, 0, 0⟩

theorem stands_path (st : PlannerState) (s : OpenState) (loc : V3 ℝ) (h : StandsAt loc s.w) (hv : s.w.velocity = ⟨0, 0, 0⟩) (hz : s.goto_z = none) :
    StandsAt loc (getPathMsgOpen st s).w ∧ (getPathMsgOpen st s).w.out_position = loc.fin := by
  obtain ⟨h1, h2, h3, h4⟩ := h
  unfold getPathMsgOpen
  dsimp only
  generalize pathDt { s.w with out_adapted := s.w.out_goto } = dt
  have hy : ∀ w : WgState, (nextSmoothYaw st dt w).smoothed_loc = w.smoothed_loc ∧ (nextSmoothYaw st dt w).smoothed_vel = w.smoothed_vel ∧
      (nextSmoothYaw st dt w).velocity = w.velocity := by
    intro w
    unfold nextSmoothYaw
    dsimp only
    split <;> exact ⟨rfl, rfl, rfl⟩
  obtain ⟨y1, y2, y3⟩ := hy { s.w with out_adapted := s.w.out_goto }
  have y4 := sameW_yaw st dt { s.w with out_adapted := s.w.out_goto }
  generalize nextSmoothYaw st dt { s.w with out_adapted := s.w.out_goto } = w at y1 y2 y3 y4
  rw [if_neg (by rw [y4.auto_land]; show ¬ s.w.auto_land = true; rw [h1]; simp)]
  have hu : ∃ speed a, adaptSpeedOpen st dt { s with w := w, adapted_z := s.goto_z } =
      { s with w := { w with speed := speed, heading_at_goal := none, out_adapted := a }, adapted_z := none } := by
    unfold adaptSpeedOpen
    dsimp only
    rw [hz]
    exact ⟨_, _, rfl⟩
  obtain ⟨speed, a, hu⟩ := hu
  rw [hu]
  have hs : smoothWaypointOpen dt ({ s with w := { w with speed := speed, heading_at_goal := none, out_adapted := a }, adapted_z := none }) =
      { s with w := { w with speed := speed, heading_at_goal := none, out_adapted := a, smoothed_vel := ⟨0, 0, 0⟩, smoothed_loc := some loc, out_smoothed := loc },
               adapted_z := none, smoothed_z := some loc.z } := by
    unfold smoothWaypointOpen
    dsimp only
    rw [if_neg (by rw [y4.sxy, y4.sz]; exact h2), y1, y2, y3]
    dsimp only
    rw [h3, h4, hv]
    simp [V3.minus, V3.plus, V3.smul]
  rw [hs]
  exact ⟨⟨y4.auto_land.trans h1, by rw [y4.sxy, y4.sz]; exact h2, rfl, rfl⟩, rfl⟩

theorem stands_cycle (s : OpenState) (pl : PlannerInfo) (i : WgIn) (now : ℝ) (loc : V3 ℝ) (h : HoversIn pl i) (hs : StandsAt loc s.w) :
    (openCycle (.DIRECT, s) pl i now).1 = .DIRECT ∧ StandsAt loc (openCycle (.DIRECT, s) pl i now).2.w ∧
    (openCycle (.DIRECT, s) pl i now).2.w.out_position = loc.fin := by
  rw [openCycle_eq]
  obtain ⟨a1, a2, a3, a4, a5, a6, a7, a8, a9, a10, a11, a12, a13, -⟩ := openStart_spec s pl i now
  obtain ⟨h1, h2, h3, h4, h5, h6, h7⟩ := h
  have hst : StandsAt loc (openStart s pl i now).w ∧ (openStart s pl i now).w.is_takeoff = i.is_takeoff := by
    obtain ⟨b1, b2, b3, b4⟩ := hs
    unfold StandsAt openStart wgStart wgUpdate
    simp [h5, b3, b1]
    exact ⟨by simpa using b2, b4⟩
  obtain ⟨hst, hto⟩ := hst
  dsimp only
  generalize openStart s pl i now = t at *
  unfold Machine.iterateOnce openMachine openRun
  dsimp only
  have key : ∃ w, runDirectOpen t = (.REPEAT, w) ∧ StandsAt loc w.w ∧ w.w.out_position = loc.fin := by
    unfold runDirectOpen
    dsimp only
    generalize hv : ({ t with w := { t.w with out_goto := _ }, goto_z := none } : OpenState) = v
    obtain ⟨k1, k2⟩ := stands_path .DIRECT v loc (by rw [← hv]; exact hst) (by rw [← hv]; exact a3.trans h6) (by rw [← hv])
    have f := (sameW_path .DIRECT v).1
    generalize getPathMsgOpen .DIRECT v = u at k1 k2 f
    have f1 : u.w.nav = .mission := by rw [f.nav, ← hv]; exact a4.trans h1
    have f2 : u.w.is_land = false := by rw [f.is_land, ← hv]; exact a5.trans h2
    have f3 : u.w.is_takeoff = false := by rw [f.is_takeoff, ← hv]; exact hto.trans h3
    have f4 : u.w.loiter = false := by rw [f.loiter, ← hv]; exact a6.trans h4
    have f5 : u.w.planner.path = [] := by rw [f.planner, ← hv]; show t.w.planner.path = []; rw [a1]; exact h7
    have e1 : ¬ (wgSetpoint u.w.planner u.w.current_time).1 = true := by
      unfold wgSetpoint
      rw [f5]
      cases u.w.planner.cruise_velocity with
      | none => simp
      | some c => simp [getSetpointFromPath]
    have e2 : isAltitudeChangeOpen u.w = (false, { u.w with auto_land := false }) := by
      unfold isAltitudeChangeOpen
      simp [f1, f2, f3]
    rw [if_neg e1, e2, f4]
    refine ⟨_, by simp; rfl, ?_, ?_⟩
    · exact ⟨rfl, k1.2⟩
    · exact k2
  obtain ⟨w, k1, k2, k3⟩ := key
  rw [k1]
  exact ⟨rfl, k2, k3⟩

/-- **C124 (violated: with smoothing an open goal is not approached at all).** With smoothing, as configured by default, a hovering
vehicle on the way to a goal with open height stays where it is, wherever the goal is and however many rounds go by: the smoothing
replaces the undefined way to the goal by zero in all three directions. -/
theorem C124_smoothing_stands_violated (s : OpenState) (loc : V3 ℝ) (l : List (PlannerInfo × WgIn × ℝ)) (pl : PlannerInfo) (i : WgIn) (now : ℝ)
    (h : ∀ r ∈ l ++ [(pl, i, now)], HoversIn r.1 r.2.1) (ha : s.w.auto_land = false)
    (hs : 1 / 100 ≤ s.w.smoothing_speed_xy ∧ 1 / 100 ≤ s.w.smoothing_speed_z)
    (hl : s.w.smoothed_loc = some loc) (hv : s.w.smoothed_vel = ⟨0, 0, 0⟩) :
    (openRunAll (.DIRECT, s) (l ++ [(pl, i, now)])).1 = .DIRECT ∧
    (openRunAll (.DIRECT, s) (l ++ [(pl, i, now)])).2.w.out_position = loc.fin := by
  have h0 : StandsAt loc s.w := ⟨ha, by rw [not_or, not_lt, not_lt]; exact hs, hl, hv⟩
  have run : ∀ (l : List (PlannerInfo × WgIn × ℝ)) (s : OpenState), (∀ r ∈ l, HoversIn r.1 r.2.1) → StandsAt loc s.w →
      ∃ s', openRunAll (.DIRECT, s) l = (.DIRECT, s') ∧ StandsAt loc s'.w := by
    intro l
    induction l with
    | nil => exact fun s _ h => ⟨s, rfl, h⟩
    | cons a l ih =>
      obtain ⟨pl, i, now⟩ := a
      intro s h hs
      obtain ⟨b1, b2, -⟩ := stands_cycle s pl i now loc (h (pl, i, now) (List.mem_cons_self ..)) hs
      obtain ⟨s', e, r⟩ := ih (openCycle (.DIRECT, s) pl i now).2 (fun r hr => h r (List.mem_cons_of_mem _ hr)) b2
      refine ⟨s', ?_, r⟩
      have hp : openCycle (.DIRECT, s) pl i now = (.DIRECT, (openCycle (.DIRECT, s) pl i now).2) := Prod.ext b1 rfl
      show openRunAll (openCycle (.DIRECT, s) pl i now) l = _
      rw [hp]
      exact e
  obtain ⟨s', e, h1⟩ := run l s (fun r hr => h r (List.mem_append_left _ hr)) h0
  rw [openRunAll_append, e]
  obtain ⟨b1, -, b3⟩ := stands_cycle s' pl i now loc (h (pl, i, now) (by simp)) h1
  exact ⟨b1, b3⟩

/-- A state of the generator for the examples: it has just begun to adjust the altitude. -/
def openInit (auto_land : Bool) : OpenState :=
  ⟨{ wgInit ⟨0, 0, 5⟩ ⟨3, 0, 0⟩ with auto_land := auto_land, state_changed := true, speed := 3, smoothing_speed_xy := 0, airborne := true, smoothed_loc := some ⟨0, 0, 5⟩ },
    none, none, none⟩

/-- Inputs for the examples. -/
def openIn (nav : NavState) (vx : ℝ) : WgIn :=
  ⟨⟨0, 0, 5⟩, ⟨vx, 0, 0⟩, ⟨3, 0, 0⟩, 0, 0, nav, false, false, ⟨none, none, some (-1)⟩, false, true⟩

/-- Non-vacuity of `C124_enters_partial` and `C124_lands_partial`: first fast, then slow. -/
example : Down (openIn .auto_land 2) ∧ Down (openIn .auto_rtl 0) ∧ FastIn (openIn .auto_land 2) ∧ ¬ FastIn (openIn .auto_rtl 0) ∧
    (openRunAll (.ALTITUDE_CHANGE, openInit true) ([(⟨[], 0, none⟩, openIn .auto_land 2, 100000)] ++ [(⟨[], 0, none⟩, openIn .auto_rtl 0, 100001)])).2.w.out_position =
      ⟨some 0, some 0, none⟩ := by
  have hf : FastIn (openIn .auto_land 2) := by
    unfold FastIn openIn V3.normXY
    rw [Real.lt_sqrt (by norm_num)]
    norm_num
  have hn : ¬ FastIn (openIn .auto_rtl 0) := by
    unfold FastIn openIn V3.normXY
    rw [not_lt, Real.sqrt_le_left (by norm_num)]
    norm_num
  have h1 : Down (openIn .auto_land 2) := ⟨Or.inl rfl, rfl⟩
  have h2 : Down (openIn .auto_rtl 0) := ⟨Or.inr (Or.inr rfl), rfl⟩
  refine ⟨h1, h2, hf, hn, ?_⟩
  have := (C124_lands_partial (openInit true) ⟨0, 0, 5⟩ [(⟨[], 0, none⟩, openIn .auto_land 2, 100000)] ⟨[], 0, none⟩ (openIn .auto_rtl 0) 100001
    (by
      intro r hr
      simp at hr
      rcases hr with rfl | rfl
      · exact h1
      · exact h2) rfl (Or.inl ⟨rfl, _, rfl, rfl⟩)).2.2 hn
  rw [this.1]
  unfold heldPlace
  rw [if_pos hf]
  rfl

/-- Non-vacuity of `C124_offboard_descends_violated`. -/
example : OffboardIn (openIn .offboard 0) ∧ (openInit false).w.auto_land = false ∧ (openInit false).w.reach_altitude_offboard = false ∧
    (openInit false).w.smoothing_speed_xy < 1 / 100 ∧ 0 ≤ (openInit false).w.speed :=
  ⟨⟨rfl, rfl, rfl⟩, rfl, rfl, by norm_num [openInit], by norm_num [openInit]⟩

/-- Non-vacuity of `C124_offboard_never_reached_violated`: with smoothing, two rounds five metres above the ground. -/
example : (openRunAll (.ALTITUDE_CHANGE, { openInit false with w := { (openInit false).w with smoothing_speed_xy := 10, smoothing_speed_z := 10 } })
    ([(⟨[], 0, none⟩, openIn .offboard 0, 100000)] ++ [(⟨[], 0, none⟩, openIn .offboard 0, 100001)])).2.goto_z = some 4 := by
  have h : OffboardIn (openIn .offboard 0) := ⟨rfl, rfl, rfl⟩
  have := (C124_offboard_never_reached_violated { openInit false with w := { (openInit false).w with smoothing_speed_xy := 10, smoothing_speed_z := 10 } }
    [(⟨[], 0, none⟩, openIn .offboard 0, 100000)] ⟨[], 0, none⟩ (openIn .offboard 0) 100001
    (by intro r hr; simp at hr; rcases hr with rfl | rfl <;> exact h) rfl).2.2.2
  rw [this]
  norm_num [openIn]

/-- **C124 (witness).** Three metres before a goal with open height, at 3 m/s and with the camera looking elsewhere, the generator
publishes a point 5.1 m behind the goal. -/
theorem C124_direct_beyond_witness :
    (openCycle (.DIRECT, openInit false) ⟨[], 0, none⟩ (openIn .mission 3) ((openInit false).w.current_time + 1 / 10)).2.w.out_position =
      ⟨some (3 + 51 / 10), some 0, none⟩ := by
  have h := C124_direct_beyond_violated (openInit false) ⟨[], 0, none⟩ (openIn .mission 3) ((openInit false).w.current_time + 1 / 10) rfl
    (by norm_num [openInit])
  dsimp only at h
  have hv : (openCycle (.DIRECT, openInit false) ⟨[], 0, none⟩ (openIn .mission 3) ((openInit false).w.current_time + 1 / 10)).2.w.speed = 27 / 10 := by
    rw [openCycle_eq]
    have := direct_speed (openStart (openInit false) ⟨[], 0, none⟩ (openIn .mission 3) ((openInit false).w.current_time + 1 / 10)) rfl
      (by show (0 : ℝ) < 1 / 100; norm_num) rfl
    refine this.trans ?_
    have e1 : (openStart (openInit false) ⟨[], 0, none⟩ (openIn .mission 3) ((openInit false).w.current_time + 1 / 10)).w.speed = 3 := rfl
    have e2 : pathDt (openStart (openInit false) ⟨[], 0, none⟩ (openIn .mission 3) ((openInit false).w.current_time + 1 / 10)).w = 1 / 10 := by
      have e3 : pathDt (openStart (openInit false) ⟨[], 0, none⟩ (openIn .mission 3) ((openInit false).w.current_time + 1 / 10)).w =
        if (openInit false).w.current_time + 1 / 10 - (openInit false).w.current_time > 0 then (openInit false).w.current_time + 1 / 10 - (openInit false).w.current_time else 1 / 10000 := rfl
      rw [e3, if_pos (by linarith)]
      ring
    rw [e1, e2]
    norm_num
  rw [h, hv]
  simp [openIn]
  norm_num

end
end Avoidance
