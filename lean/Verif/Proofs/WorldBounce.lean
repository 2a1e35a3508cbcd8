import Verif.Proofs.WorldMomentum
import Verif.Proofs.WorldHeavy
import Verif.Proofs.WorldPlain
import Verif.Proofs.WorldPointsToi
import Verif.Props.ContactSolver
import Verif.Spec.Bounce

/-! # Two bodies that only meet each other: the contact condition through a whole step -/
set_option linter.unusedSectionVars false
namespace B2
open Spec World
section
variable {F : Type} [Field F] [LinearOrder F] [IsStrictOrderedRing F] [Elem F]
variable {E : Engine F}

/-! ### An island with one contact and no joint -/

theorem islandIterate_nil (st : JStep F) (block : Bool) : ∀ (n i : Nat) (l : List (VConstraint F)) (vel : Arr (Vel F)),
    islandIterate st block n [] l vel = (iterate block (fun _ v => v) i n l vel).map fun r => ([], r.1, r.2) := by
  intro n
  induction n with
  | zero => intro i l vel; rfl
  | succ n ih =>
    intro i l vel
    unfold islandIterate iterate solveJoints
    simp only [Option.bind_eq_bind, Option.bind_some]
    cases solveVelocities block l vel with
    | none => rfl
    | some r => simp only [Option.bind_some]; exact ih (i + 1) r.1 r.2

theorem islandVelocity_nil (st : JStep F) (block : Bool) (n : Nat) (bodies : Nat → JBody F) (pos : Arr (Pos F)) (vel : Arr (Vel F)) (cs : List (ContactIn F)) :
    islandVelocity st block n bodies pos vel cs [] =
      (velocityPhase ⟨st.warmStarting, st.dtRatio, n, block, fun v => v, fun _ v => v⟩ pos vel cs).map fun r => ([], r.2.1, r.2.2) := by
  unfold islandVelocity velocityPhase
  dsimp only
  cases setUp st.warmStarting st.dtRatio block pos vel cs with
  | none => rfl
  | some l =>
    simp only [Option.bind_eq_bind, Option.bind_some]
    cases warmIf st.warmStarting (l.map (·.1)) vel with
    | none => rfl
    | some v =>
      simp only [Option.bind_some]
      unfold initJoints
      simp only [Option.bind_some]
      rw [islandIterate_nil st block n 0]
      cases iterate block (fun _ v => v) 0 n (l.map (·.1)) v with
      | none => rfl
      | some r => rfl

/-- The velocity phase of an island of one contact and no joint. -/
theorem velocity_one (hb : E.block = true) {v1 : World F} {isl : Island} {step : TimeStep F} {states : List (BState F)} {c : Nat} {ci : ContactIn F}
    (hcs : isl.contacts = [c]) (hjs : isl.joints = []) (hci : v1.contactIn c = some ci) (hok : ci.Ok states.length) (hp : Pushing ci.manifold)
    (hd : 0 ≤ step.dtRatio) (hvi : 1 ≤ step.velocityIterations) (hu : ∀ wm, ci.worldAt (World.positionsOf states) = some wm → dot wm.normal wm.normal = 1) :
    ∃ r m wm p1, E.velocity v1 isl step states = some r ∧ r.2.2 = [m] ∧ ci.worldAt (World.positionsOf states) = some wm ∧ m.points[0]? = some p1 ∧
      ContactCondition p1.normalImpulse
        (separatingSpeed wm.normal wm.p1 ((World.positionsOf states).at' ci.indexA).c ((World.positionsOf states).at' ci.indexB).c (r.2.1.at' ci.indexA) (r.2.1.at' ci.indexB))
        (ci.bounce (separatingSpeed wm.normal wm.p1 ((World.positionsOf states).at' ci.indexA).c ((World.positionsOf states).at' ci.indexB).c
          ((World.velocitiesOf states).at' ci.indexA) ((World.velocitiesOf states).at' ci.indexB))) := by
  obtain ⟨vcs, vc, vel', ms, m, wm, p1, h1, h2, h3, h4, -⟩ := Props.contact_condition_unit ⟨step.jstep.warmStarting, step.jstep.dtRatio, step.velocityIterations, E.block, fun v => v, fun _ v => v⟩
    (World.positionsOf states) (World.velocitiesOf states) [] ci rfl hd hb hvi (fun _ => rfl) (fun _ _ => rfl) (fun c' hc' => by
      simp only [List.nil_append, List.mem_singleton] at hc'
      subst hc'; exact ⟨hok, hp⟩) hu
  rw [List.nil_append] at h1
  have e : E.velocity v1 isl step states = some ([], vel', ms ++ [m]) := by
    unfold Engine.velocity
    rw [hcs, hjs]
    have : [c].mapM v1.contactIn = some [ci] := by simp [hci]
    rw [this]
    simp only [Option.bind_eq_bind, Option.bind_some, List.map_nil]
    rw [islandVelocity_nil, h1]
    rfl
  have hms : ms = [] := by
    have : (ms ++ [m]).length ≤ 1 := by
      unfold velocityPhase at h1
      simp only [Option.bind_eq_bind, Option.bind_eq_some_iff] at h1
      obtain ⟨_, _, _, _, _, _, h1⟩ := h1
      simp only [Option.pure_def, Option.some.injEq, Prod.mk.injEq] at h1
      rw [← h1.2.2]
      simp
    simpa using this
  subst hms
  exact ⟨_, m, wm, p1, e, rfl, h2, h3, h4⟩

/-! ### Moving an island when post-solve callbacks do nothing -/

/-- The post-solve callback does nothing to the world. -/
def Silent (env : Env F) : Prop := ∀ w c, env.react w (.postSolve c) = []

theorem listen_silent {env : Env F} (hS : Silent env) {w w' : World F} {c : Nat} (e : w.listen env (.postSolve c) = some w') : w'.cst = w.cst := by
  unfold listen at e
  split at e
  · unfold emit at e
    dsimp only at e
    rw [hS] at e
    simp only [List.foldlM_nil, Option.pure_def, Option.some.injEq] at e
    rw [← e]
  · cases e; rfl

theorem report_silent {env : Env F} (hS : Silent env) {w w' : World F} {l : List Nat} (e : w.report env l = some w') : w'.cst = w.cst :=
  foldlM_inv (fun x => x.cst = w.cst) e rfl (fun _ _ _ _ h e => (listen_silent hS e).trans h)

theorem sleepTimers_cst (h : F) : ∀ (l : List Nat) (w : World F) (m : F), (sleepTimers h l w m).1.cst = w.cst := by
  intro l
  induction l with
  | nil => intro w m; rfl
  | cons b l ih =>
    intro w m
    unfold sleepTimers
    split
    · exact ih _ _
    · dsimp only
      split
      · exact (ih _ _).trans rfl
      · exact (ih _ _).trans rfl

theorem sleepIsland_cst {w : World F} {h : F} {l : List Nat} {solved : Bool} : (w.sleepIsland h l solved).cst = w.cst := by
  unfold sleepIsland
  dsimp only
  split
  · exact (foldl_inv (f := fun w b => World.setAwake w b false) (l := l) (fun x : World F => x.cst = (sleepTimers h l w maxFlt).1.cst) rfl (fun _ _ _ h => h)).trans (sleepTimers_cst _ _ _ _)
  · exact sleepTimers_cst _ _ _ _

theorem releaseStatics_cst (w : World F) (l : List Nat) : (w.releaseStatics l).cst = w.cst := by
  unfold releaseStatics
  refine foldl_inv (fun x : World F => x.cst = w.cst) rfl (fun b _ v h => ?_)
  dsimp only
  split <;> exact h

theorem writeBack_cst (w : World F) (bodies : List Nat) (states : List (BState F)) : (w.writeBack bodies states).cst = w.cst := by
  unfold writeBack
  exact foldl_inv (fun x : World F => x.cst = w.cst) rfl (fun _ _ _ h => h)

/-- What solving an island makes of the velocities of its bodies and of its contacts. -/
theorem islandSolve_full (hE : LeavesBodies E.env) (hS : Silent E.env) {v v' : World F} {cap : Nat} {isl : Island} {step : TimeStep F} (hx : Fitted v isl) (hnd : isl.bodies.Nodup)
    (e : v.islandSolve E.env cap isl step = some v') : ∃ v1 : World F, v1.g = v.g ∧ v1.cst = v.cst ∧ Fitted v1 isl ∧
      (∀ b, v1.phys b = if b ∈ isl.bodies then { v.phys b with sweep := { (v.phys b).sweep with c0 := (v.phys b).sweep.c, a0 := (v.phys b).sweep.a } } else v.phys b) ∧
      (∀ b, v1.initState step.dt b = v.initState step.dt b) ∧
      (∀ i b, isl.bodies[i]? = some b → v.typeOf b ≠ .static → ((v'.phys b).awake = false ∧ (v'.phys b).v = ⟨0, 0⟩ ∧ (v'.phys b).w = 0) ∨
        ((v'.phys b).v, (v'.phys b).w) = clampVelocity step.dt (E.env.solveVel v1 isl step (isl.bodies.map (v.initState step.dt)) i).1
        (E.env.solveVel v1 isl step (isl.bodies.map (v.initState step.dt)) i).2) ∧
      (∀ c, c ∉ isl.contacts → v'.cst c = v.cst c) ∧
      ∀ c, isl.contacts = [c] → v'.cst c = { v.cst c with manifold := storeImpulses (v.cst c).manifold (E.env.impulses v1 isl step 0) } := by
  obtain ⟨u, r, e1, rfl⟩ := islandSolve_inv e
  have ht : ∀ b, u.typeOf b = v.typeOf b := fun b => (islandMove_mild e1).toWFrame.typeOf b
  unfold islandMove at e1
  split at e1
  · cases e1
  simp only [Option.bind_eq_bind, Option.bind_eq_some_iff] at e1
  obtain ⟨v3, e1, e'⟩ := e1
  cases e'
  set states : List (BState F) := isl.bodies.map (v.initState step.dt) with hst
  set v1 : World F := isl.bodies.foldl (fun w b => w.setPhys b { w.phys b with sweep := { (w.phys b).sweep with c0 := (w.phys b).sweep.c, a0 := (w.phys b).sweep.a } }) v with hv1
  obtain ⟨f1, f2, f3⟩ := foldl_setPhys_spec (fun w y => { w.phys y with sweep := { (w.phys y).sweep with c0 := (w.phys y).sweep.c, a0 := (w.phys y).sweep.a } })
    (fun w w' y h => by dsimp only; rw [h]) isl.bodies v hnd
  have f4 : v1.cst = v.cst := by
    rw [hv1]; exact foldl_inv (fun x : World F => x.cst = v.cst) rfl (fun _ _ _ h => h)
  have f5 : v1.gravity = v.gravity := by
    rw [hv1]; exact foldl_inv (fun x : World F => x.gravity = v.gravity) rfl (fun _ _ _ h => h)
  rw [← hv1] at f1 f2 f3
  set st1 : List (BState F) := (setVelocities states (E.env.solveVel v1 isl step states)).map (integratePosition step.dt) with hst1
  set v2 : World F := isl.contacts.zipIdx.foldl (fun w x => w.setCst x.1 { w.cst x.1 with manifold := storeImpulses (w.cst x.1).manifold (E.env.impulses v1 isl step x.2) }) v1 with hv2
  have q4 : ∀ c, c ∉ isl.contacts → v2.cst c = v.cst c := by
    intro c hc
    rw [hv2]
    refine foldl_inv (fun x : World F => x.cst c = v.cst c) (by rw [f4]) (fun x hx y h => ?_)
    have hxm : x.1 ∈ isl.contacts := by
      obtain ⟨a, b⟩ := x
      exact (List.mem_zipIdx hx).2.2 ▸ List.getElem_mem _
    show upd y.cst x.1 _ c = _
    rw [upd_other _ _ (fun hh : c = x.1 => hc (by rw [hh]; exact hxm))]
    exact h
  have q5 : ∀ c, isl.contacts = [c] → v2.cst c = { v.cst c with manifold := storeImpulses (v.cst c).manifold (E.env.impulses v1 isl step 0) } := by
    intro c hc
    rw [hv2, hc]
    show upd v1.cst c _ c = _
    rw [upd_same, f4]
  obtain ⟨q1, q2, q3⟩ := setCsts_same isl.contacts.zipIdx (fun _ x => x.1)
    (fun w x => { w.cst x.1 with manifold := storeImpulses (w.cst x.1).manifold (E.env.impulses v1 isl step x.2) }) v1
  rw [← hv2] at q1 q2 q3
  clear_value v1 v2
  set st2 : List (BState F) := setPositions st1 (E.env.solvePos v1 isl step st1).1 with hst2
  have hlen : isl.bodies.length = st2.length := by rw [hst2, hst1, hst]; simp [setVelocities, setPositions]
  have hcst : u.cst = v2.cst := (report_silent hS e1).trans (writeBack_cst _ _ _)
  have hw3 : ∀ i b, isl.bodies[i]? = some b → ((u.phys b).v, (u.phys b).w) = clampVelocity step.dt (E.env.solveVel v1 isl step states i).1 (E.env.solveVel v1 isl step states i).2 := by
    intro i b hi
    have hrep := report_spares hE (b := b) e1
    obtain ⟨k1, k2⟩ := writeBack_phys (b := b) isl.bodies st2 v2 hnd hlen
    have hs1 : states[i]? = some (v.initState step.dt b) := by rw [hst]; simp [hi]
    have hs2 : st1[i]? = some (integratePosition step.dt ⟨(v.phys b).sweep.c, (v.phys b).sweep.a, (E.env.solveVel v1 isl step states i).1, (E.env.solveVel v1 isl step states i).2⟩) := by
      rw [hst1]
      simp only [setVelocities, List.getElem?_map, List.getElem?_mapIdx, hs1, Option.map_some]
      rfl
    have hs3 : st2[i]? = some { integratePosition step.dt ⟨(v.phys b).sweep.c, (v.phys b).sweep.a, (E.env.solveVel v1 isl step states i).1, (E.env.solveVel v1 isl step states i).2⟩ with
        c := ((E.env.solvePos v1 isl step st1).1 i).1, a := ((E.env.solvePos v1 isl step st1).1 i).2 } := by
      rw [hst2]
      simp only [setPositions, List.getElem?_mapIdx, hs2, Option.map_some]
    have hc := hrep.core
    rw [core_eq hc, k2 i _ hi hs3]
    rfl
  refine ⟨v1, f1, f4, ?_, f3, fun b => ?_, fun i b hi hn => ?_, fun c hc => ?_, fun c hc => ?_⟩
  · refine ⟨fun j y hy => ?_, by rw [f1]; exact hx.contacts, by rw [f1]; exact hx.joints⟩
    rw [f3, if_pos (List.mem_of_getElem? hy)]
    exact hx.index j y hy
  · unfold initState World.typeOf
    rw [f1, f3, f5]
    split_ifs <;> rfl
  · have hb := List.mem_of_getElem? hi
    split
    · obtain ⟨k1, k2, k3⟩ := sleepIsland_spec (w := u) (h := step.dt) (l := isl.bodies) (solved := (E.env.solvePos v1 isl step st1).2) hnd
      by_cases hall : (∀ b ∈ isl.bodies, u.typeOf b ≠ .static → restless (u.phys b) = false ∧ timeToSleep ≤ (u.phys b).sleepTime + step.dt) ∧ (E.env.solvePos v1 isl step st1).2 = true
      · left
        rw [k2 hall b hb]
        unfold Phys.setAwake
        rw [if_neg (by rw [ht]; exact hn)]
        exact ⟨rfl, rfl, rfl⟩
      · right
        rw [k3 hall b hb, ← hw3 i b hi]
        unfold timed
        split <;> rfl
    · exact .inr (hw3 i b hi)
  · split
    · rw [sleepIsland_cst, hcst]; exact q4 c hc
    · rw [hcst]; exact q4 c hc
  · split
    · rw [sleepIsland_cst, hcst]; exact q5 c hc
    · rw [hcst]; exact q5 c hc

theorem clamp_under (hr : RootBelow F) {h : F} {v : Vec2 F} {w : F} {u : Vel F} (e : (u.v, u.w) = clampVelocity h v w) (hu : UnderLimits h u) : u = ⟨v, w⟩ := by
  have e1 : u.v = (clampVelocity h v w).1 := by rw [← e]
  have e2 : u.w = (clampVelocity h v w).2 := by rw [← e]
  obtain ⟨h1, h2⟩ := hu
  rw [e1] at h1
  rw [e2] at h2
  ext1
  · rw [e1]; exact clamp_below hr h1
  · rw [e2]
    unfold clampVelocity at h2 ⊢
    dsimp only at h2 ⊢
    split
    · rename_i hb
      exfalso
      rw [if_pos hb] at h2
      have hne : h * w ≠ 0 := by
        intro h0
        rw [h0] at hb
        have := mul_self_nonneg (maxRotation : F)
        simp only [mul_zero, gt_iff_lt] at hb
        linarith
      have ha : |h * w| ≠ 0 := by rwa [ne_eq, abs_eq_zero]
      have hsq : |h * w| * |h * w| = (h * w) * (h * w) := abs_mul_abs_self _
      have : h * (w * (maxRotation / |h * w|)) * (h * (w * (maxRotation / |h * w|))) = maxRotation * maxRotation := by
        have : h * (w * (maxRotation / |h * w|)) * (h * (w * (maxRotation / |h * w|))) = (h * w) * (h * w) * (maxRotation * maxRotation) / (|h * w| * |h * w|) := by
          field_simp
        rw [this, hsq, mul_div_cancel_left₀ _ (mul_ne_zero hne hne)]
      rw [this] at h2
      exact lt_irrefl _ h2
    · rfl

theorem silent_calm {env : Env F} (hS : Silent env) : PostSolveCalm env := by
  intro w w' c e
  unfold listen at e
  split at e
  · unfold emit at e
    dsimp only at e
    rw [hS] at e
    simp only [List.foldlM_nil, Option.pure_def, Option.some.injEq] at e
    rw [← e]
    exact ⟨fun _ => rfl, fun _ => rfl, fun _ => rfl⟩
  · cases e; exact ⟨fun _ => rfl, fun _ => rfl, fun _ => rfl⟩

/-! ### The search changes only flags of contacts -/

/-- The contact is the same, up to its flag. -/
def SameCon (c : Nat) (w w' : World F) : Prop := w'.cst c = { w.cst c with island := (w'.cst c).island }

theorem SameCon.refl (c : Nat) (w : World F) : SameCon c w w := rfl
theorem SameCon.trans {c : Nat} {w w' w'' : World F} (h : SameCon c w w') (h' : SameCon c w' w'') : SameCon c w w'' := by
  unfold SameCon at *
  rw [h', h]
theorem SameCon.of_eq {c : Nat} {w w' : World F} (h : w'.cst = w.cst) : SameCon c w w' := by unfold SameCon; rw [h]

theorem pushBody_con {c y o : Nat} {s s' : Search F} (h : pushBody y s o = some s') : SameCon c s.w s'.w := by
  unfold pushBody at h
  split at h
  · cases h; exact .refl _ _
  split at h
  · cases h
  · cases h; exact .of_eq rfl

theorem visitContact_con {c y : Nat} {s s' : Search F} {e : Nat × Nat} (h : visitContact y s e = some s') : SameCon c s.w s'.w := by
  unfold visitContact at h
  dsimp only at h
  split at h
  · cases h; exact .refl _ _
  split at h
  · cases h; exact .refl _ _
  split at h
  · cases h; exact .refl _ _
  · refine SameCon.trans (w' := s.w.setCst e.1 { s.w.cst e.1 with island := true }) ?_
      (pushBody_con (s := { s with w := s.w.setCst e.1 { s.w.cst e.1 with island := true }, island := { s.island with contacts := s.island.contacts ++ [e.1] } }) h)
    unfold SameCon World.setCst
    dsimp only
    by_cases hc : c = e.1
    · rw [hc, upd_same]
    · rw [upd_other _ _ hc]

theorem visitJoint_con {c y : Nat} {s s' : Search F} {e : Nat × Nat} (h : visitJoint y s e = some s') : SameCon c s.w s'.w := by
  unfold visitJoint at h
  split at h
  · cases h; exact .refl _ _
  split at h
  · cases h; exact .refl _ _
  · exact SameCon.trans (w' := { s.w with jIsland := upd s.w.jIsland e.1 true }) (.of_eq rfl)
      (pushBody_con (s := { s with w := { s.w with jIsland := upd s.w.jIsland e.1 true }, island := { s.island with joints := s.island.joints ++ [e.1] } }) h)

theorem visitBody_con {c y : Nat} {s s' : Search F} (h : visitBody s y = some s') : SameCon c s.w s'.w := by
  unfold visitBody at h
  split at h
  · cases h
  dsimp only at h
  have s1 : SameCon c s.w (s.w.setPhys y { s.w.phys y with islandIndex := s.island.bodies.length }) := .of_eq rfl
  generalize s.w.setPhys y { s.w.phys y with islandIndex := s.island.bodies.length } = w1 at *
  split at h
  · cases h; exact s1
  have s2 : SameCon c w1 (w1.setPhys y { w1.phys y with awake := true }) := .of_eq rfl
  simp only [Option.bind_eq_bind, Option.bind_eq_some_iff] at h
  obtain ⟨s3, h3, h4⟩ := h
  refine s1.trans (s2.trans (SameCon.trans ?_ ?_ (w' := s3.w)))
  · exact foldlM_inv (fun x : Search F => SameCon c _ x.w) h3 (.refl _ _) (fun e _ x x' hx hv => hx.trans (visitContact_con hv))
  · exact foldlM_inv (fun x : Search F => SameCon c _ x.w) h4 (.refl _ _) (fun e _ x x' hx hv => hx.trans (visitJoint_con hv))

theorem search_con {c : Nat} : ∀ {n : Nat} {s s' : Search F}, search n s = some s' → SameCon c s.w s'.w := by
  intro n
  induction n with
  | zero => intro s s' h; cases h
  | succ n ih =>
    intro s s' h
    unfold World.search at h
    split at h
    · cases h; exact .refl _ _
    · simp only [Option.bind_eq_bind, Option.bind_eq_some_iff] at h
      obtain ⟨s1, h1, h2⟩ := h
      exact (visitBody_con (s := { s with stack := _ }) h1).trans (ih h2)

theorem buildIsland_con {c : Nat} {w : World F} {seed : Nat} {s : Search F} (h : w.buildIsland seed = some s) : SameCon c w s.w :=
  SameCon.trans (w' := w.setPhys seed { w.phys seed with island := true }) (.of_eq rfl) (search_con h)

/-! ### Manifolds that differ in their impulses only -/

/-- The manifolds differ in their impulses only. -/
structure Restamped (m m' : Manifold F) : Prop where
  type : m'.type = m.type
  normal : m'.localNormal = m.localNormal
  point : m'.localPoint = m.localPoint
  points : m'.points.map (·.localPoint) = m.points.map (·.localPoint)

theorem Restamped.refl (m : Manifold F) : Restamped m m := ⟨rfl, rfl, rfl, rfl⟩
theorem Restamped.trans {m m' m'' : Manifold F} (h : Restamped m m') (h' : Restamped m' m'') : Restamped m m'' :=
  ⟨h'.type.trans h.type, h'.normal.trans h.normal, h'.point.trans h.point, h'.points.trans h.points⟩
theorem Restamped.length {m m' : Manifold F} (h : Restamped m m') : m'.points.length = m.points.length := by
  have := congrArg List.length h.points
  simpa using this

theorem restamped_store (m : Manifold F) (l : List (F × F)) : Restamped m (storeImpulses m l) := by
  refine ⟨rfl, rfl, rfl, ?_⟩
  unfold storeImpulses
  apply List.ext_getElem?
  intro i
  simp only [List.getElem?_map, List.getElem?_mapIdx]
  cases m.points[i]? with
  | none => rfl
  | some q =>
    simp only [Option.map_some]
    split <;> rfl

theorem Restamped.world {m m' : Manifold F} (h : Restamped m m') (xA : Xf F) (rA : F) (xB : Xf F) (rB : F) : worldManifold m' xA rA xB rB = worldManifold m xA rA xB rB := by
  obtain ⟨ps, n, lp, t⟩ := m
  obtain ⟨ps', n', lp', t'⟩ := m'
  obtain ⟨h1, h2, h3, h4⟩ := h
  dsimp only at h1 h2 h3 h4
  subst h1 h2 h3
  unfold worldManifold
  dsimp only
  rcases ps with _ | ⟨a, _ | ⟨a2, _ | ⟨a3, as⟩⟩⟩ <;> rcases ps' with _ | ⟨b, _ | ⟨b2, _ | ⟨b3, bs⟩⟩⟩ <;>
    simp only [List.map_cons, List.map_nil, List.cons.injEq, reduceCtorEq, and_true, and_false, false_and] at h4
  · rfl
  · cases t' <;> simp only [h4]
  · cases t' <;> simp only [h4.1, h4.2]
  · cases t' <;> simp only [h4.1]

theorem Restamped.sound {m m' : Manifold F} (h : Restamped m m') (hs : Sound m') : Sound m :=
  ⟨by rw [← h.length]; exact hs.points, by rw [← h.length, ← h.type]; exact hs.circles, by rw [← h.type, ← h.normal]; exact hs.normal⟩

/-! ### Between two seeds -/

/-- What is asked of the two bodies when the islands are solved. -/
structure Meet (w1 : World F) (c x y : Nat) : Prop where
  tr : Transmits w1 c
  bodyA : (w1.g.fixtures (w1.g.contacts c).fA).body = some x
  bodyB : (w1.g.fixtures (w1.g.contacts c).fB).body = some y
  mem : ∀ z, z = x ∨ z = y → z ∈ w1.g.bodyList
  enabled : ∀ z, z = x ∨ z = y → (w1.g.bodies z).enabled = true
  only : ∀ z, z = x ∨ z = y → (w1.g.bodies z).type ≠ .static → ∀ c', Transmits w1 c' → OfBody w1 c' z → c' = c
  joints : ∀ z, z = x ∨ z = y → (w1.g.bodies z).type ≠ .static → ∀ j ∈ w1.g.jointList, (w1.g.joints j).a ≠ z ∧ (w1.g.joints j).b ≠ z
  mass : ∀ z, z = x ∨ z = y → 0 ≤ (w1.phys z).invMass ∧ 0 ≤ (w1.phys z).invI
  some : 0 < (w1.phys x).invMass + (w1.phys y).invMass
  still : ∀ z, z = x ∨ z = y → (w1.g.bodies z).type = .static → (w1.phys z).v = ⟨0, 0⟩ ∧ (w1.phys z).w = 0 ∧ (w1.phys z).invMass = 0 ∧ (w1.phys z).invI = 0 ∧
    (w1.phys z).sweep.c0 = (w1.phys z).sweep.c ∧ (w1.phys z).sweep.a0 = (w1.phys z).sweep.a
  posed : ∀ z, z = x ∨ z = y → Posed (w1.phys z)
  pushing : Pushing (w1.cst c).manifold
  unit : ∀ wm, worldManifold (w1.cst c).manifold (w1.phys x).xf (w1.g.fixtures (w1.g.contacts c).fA).shape.radius (w1.phys y).xf (w1.g.fixtures (w1.g.contacts c).fB).shape.radius = Option.some wm →
    dot wm.normal wm.normal = 1
  sound : Sound (w1.cst c).manifold

/-- One of the bodies fell asleep or was slowed down. -/
def Braked (dt : F) (w1 : World F) (x y : Nat) (w : World F) : Prop :=
  ∃ z, (z = x ∨ z = y) ∧ (w1.g.bodies z).type ≠ .static ∧ (w.phys z).island = true ∧ ((w.phys z).awake = false ∨ ¬ UnderLimits dt (velOf w z))

/-- The contact condition, with the bodies' velocities in `w`; the places of the bodies and their velocities before are those in `w1`. -/
def Holds (dt : F) (w1 : World F) (c x y : Nat) (w : World F) : Prop :=
  ∃ wm p, worldManifold (w.cst c).manifold (w1.phys x).xf (w1.g.fixtures (w1.g.contacts c).fA).shape.radius (w1.phys y).xf (w1.g.fixtures (w1.g.contacts c).fB).shape.radius = some wm ∧
    (w.cst c).manifold.points[0]? = some p ∧
    ContactCondition p.normalImpulse (separatingSpeed wm.normal wm.p1 (w1.phys x).sweep.c (w1.phys y).sweep.c (velOf w x) (velOf w y))
      ((CState.bounce (w.cst c)) (separatingSpeed wm.normal wm.p1 (w1.phys x).sweep.c (w1.phys y).sweep.c (drivenVel dt w1 x) (drivenVel dt w1 y)))

/-- What holds between two seeds. -/
structure BI (dt : F) (w1 : World F) (c x y : Nat) (w : World F) : Prop where
  gravity : w.gravity = w1.gravity
  core : ∀ z, z = x ∨ z = y → (w1.g.bodies z).type ≠ .static → (w.phys z).island = false → (w.phys z).core = (w1.phys z).core
  still : ∀ z, z = x ∨ z = y → (w1.g.bodies z).type = .static → At z (Heavy0 .static True (w1.phys z)) w
  con : w.cst c = { w1.cst c with island := (w.cst c).island, manifold := (w.cst c).manifold } ∧ Restamped (w1.cst c).manifold (w.cst c).manifold
  fresh : (w.cst c).island = false → (w.cst c).manifold = (w1.cst c).manifold
  done : (w.cst c).island = true → Braked dt w1 x y w ∨ Holds dt w1 c x y w

theorem reach_pair {w1 : World F} {c x y seed b : Nat} (hm : Meet w1 c x y) (h : Reach w1 seed b) (hs : (w1.g.bodies seed).type ≠ .static) (hb : (w1.g.bodies b).type ≠ .static) :
    (b = x ∨ b = y) ↔ (seed = x ∨ seed = y) := by
  have step : ∀ p q, Linked w1 p q → (w1.g.bodies p).type ≠ .static → (p = x ∨ p = y) → (q = x ∨ q = y) := by
    rintro p q (⟨c', t, k⟩ | ⟨j, t⟩) hp hx
    · have hof : OfBody w1 c' p := by
        rcases k with ⟨k, -⟩ | ⟨-, k⟩
        · exact .inl k
        · exact .inr k
      have := hm.only p hx hp c' t hof
      subst this
      rcases k with ⟨-, k⟩ | ⟨k, -⟩
      · rw [hm.bodyB] at k; cases k; exact .inr rfl
      · rw [hm.bodyA] at k; cases k; exact .inl rfl
    · have := hm.joints p hx hp j t.mem
      rcases t.ends with ⟨k, -⟩ | ⟨-, k⟩
      · exact absurd k this.1
      · exact absurd k this.2
  have symm : ∀ p q, Linked w1 p q → Linked w1 q p := by
    rintro p q (⟨c', t, k⟩ | ⟨j, t⟩)
    · exact .inl ⟨c', t, k.symm⟩
    · exact .inr ⟨j, t.mem, t.ends.symm, t.enabledY, t.enabledX⟩
  induction h with
  | seed => exact Iff.rfl
  | @step p q _ hp hl ih =>
    exact Iff.trans ⟨step q p (symm p q hl) hb, step p q hl hp⟩ (ih hp)

/-- A body of the pair whose island has not been solved, or that is static, is as it was. -/
theorem BI.ready {dt : F} {w1 w : World F} {c x y z : Nat} (hm : Meet w1 c x y) (m : BI dt w1 c x y w) (hg : w.g = w1.g) (hz : z = x ∨ z = y)
    (hf : (w1.g.bodies z).type ≠ .static → (w.phys z).island = false) :
    (w.phys z).sweep.c = (w1.phys z).sweep.c ∧ (w.phys z).sweep.a = (w1.phys z).sweep.a ∧ (w.phys z).sweep.localCenter = (w1.phys z).sweep.localCenter ∧
    (w.phys z).invMass = (w1.phys z).invMass ∧ (w.phys z).invI = (w1.phys z).invI ∧ (⟨(w.initState dt z).v, (w.initState dt z).w⟩ : Vel F) = drivenVel dt w1 z := by
  have hty : w.typeOf z = w1.typeOf z := by unfold World.typeOf; rw [hg]
  by_cases hs : (w1.g.bodies z).type = .static
  · have h := m.still z hz hs
    obtain ⟨h1, h2, h3⟩ := h
    obtain ⟨-, -, k3, k4, -⟩ := hm.still z hz hs
    refine ⟨h2, h3, h1.center, h1.invMass.trans k3.symm, h1.invI.trans k4.symm, ?_⟩
    have hnd : w1.typeOf z ≠ .dynamic := by unfold World.typeOf; rw [hs]; decide
    unfold initState integrateVelocity drivenVel
    rw [hty, if_neg hnd, if_neg hnd, h1.v, h1.w]
  · have h := m.core z hz hs (hf hs)
    have e := core_eq h
    refine ⟨by rw [e], by rw [e], by rw [e], by rw [e], by rw [e], ?_⟩
    unfold drivenVel
    split
    · rename_i hd
      have h1 := initState_free (v := w) (h := dt) (b := z) (hty.trans hd)
      rw [m.gravity, freeV_core h] at h1
      have h2 : (w.initState dt z).w = freeW dt (w1.phys z) := by
        unfold initState integrateVelocity
        rw [hty, if_pos hd, e]
        unfold freeW
        dsimp only
        ring
      rw [h1, h2]
    · rename_i hd
      unfold initState integrateVelocity
      rw [hty, if_neg hd, e]

theorem BI.seed (hr : RootBelow F) (hE : LeavesBodies E.env) (hS : Silent E.env) (hH : HeavyStay E.env) (hb : E.block = true) {step : TimeStep F} {c x y : Nat} {w1 w v : World F}
    {isls : List Island} {seen : List Nat} {seed : Nat} {s : Search F} (hd : 0 ≤ step.dtRatio) (hvi : 1 ≤ step.velocityIterations)
    (hi : GInv w1.g) (hm : Meet w1 c x y) (h : GI w1 w isls) (t : TI w1 w isls seen) (m : BI step.dt w1 c x y w) (s0 : w.isSeed seed = true) (s1 : w.buildIsland seed = some s) (hmem : seed ∈ w1.g.bodyList)
    (a2 : SI w seed (fun _ => False) s) (a3 : s.stack = []) (a4 : s.island.bodies.head? = some seed) (e : s.w.islandSolve E.env s.w.g.bodyCount s.island step = some v) :
    BI step.dt w1 c x y (v.releaseStatics s.island.bodies) := by
  have hP := silent_calm hS
  have t' := t.seed hP hi h s0 hmem a2 a3 a4 e
  set w2 := v.releaseStatics s.island.bodies with hw2
  have hflag : ∀ b, (s.w.phys b).island = true ↔ (w.phys b).island = true ∨ b ∈ s.island.bodies := by
    intro b; have := a2.flag b; rw [a3, List.append_nil] at this; exact this
  have hnd : s.island.bodies.Nodup := by have := a2.nodup; rw [a3, List.append_nil] at this; exact this
  have hsg : s.w.g = w1.g := a2.kept.g.trans h.g
  have hg : v.g = w1.g := by rw [(islandSolve_mild e).g, hsg]
  have hc := islandSolve_calm0 e
  obtain ⟨r1, r2, r3, r4⟩ := releaseStatics_spec s.island.bodies v
  have hfl : ∀ b, (w1.g.bodies b).type ≠ .static → ((w2.phys b).island = true ↔ ((w.phys b).island = true ∨ b ∈ s.island.bodies)) := by
    intro b hb
    rw [hw2, r4, hc.island, hflag, hg]
    simp [hb]
  have k2 : Keeps s.island.bodies s.w w2 := (islandSolve_keeps hP e).trans (releaseStatics_keeps v s.island.bodies)
  have fr0 : WFrame w s.w := by
    have := s1
    unfold buildIsland at this
    exact (setPhys_mild (w := w) (b := seed) (p := { w.phys seed with island := true }) (by intro _; rfl)).toWFrame.trans (search_mild this).toWFrame
  have fr : WFrame w w2 := (fr0.trans (islandSolve_mild e).toWFrame).trans (releaseStatics_mild v s.island.bodies).toWFrame
  have hfit := CI.fitted hi h t.toCI a2 a3
  have hC : ∀ c ∈ s.island.contacts, c ∈ w1.g.contactList := fun c hc => by rw [← h.g]; exact (a2.cfresh c hc).2.1.mem
  have hJ : ∀ j ∈ s.island.joints, j ∈ w1.g.jointList := fun j hj => by
    obtain ⟨-, x, -, -, y, tt⟩ := a2.jfresh j hj
    rw [← h.g]; exact tt.mem
  have hEn : ∀ y ∈ s.island.bodies, (w1.g.bodies y).enabled = true := fun y hy => by rw [← h.g]; exact (a2.fresh y (List.mem_append.mpr (.inl hy))).2.2.1
  have sp : ∀ b, b ∉ s.island.bodies → Spares b w w2 := fun b hb =>
    ((buildIsland_spares s1).trans ((islandSolve_track (b := b) (al := True) (G := s.w.gravity) (T := (· ∈ w1.g.contactList)) (triv_solves b) hE hsg rfl (fun _ => trivial) hfit hnd hC hJ hEn e).1 hb)).trans
      (releaseStatics_spares v s.island.bodies)
  have hout : ∀ b, (w1.g.bodies b).type ≠ .static → b ∉ s.island.bodies → (w2.phys b).island = (w.phys b).island ∧ (w2.phys b).awake = (w.phys b).awake ∧ (w2.phys b).core = (w.phys b).core := by
    intro b hb hn
    refine ⟨?_, ?_, (sp b hn).core⟩
    · have := hfl b hb
      rw [or_iff_left hn] at this
      exact Bool.eq_iff_iff.mpr this
    · rw [k2.awake b hn, a2.awake b hn]
  have hfresh : ∀ b ∈ s.island.bodies, (w.phys b).island = false := fun b hb => (a2.fresh b (List.mem_append.mpr (.inl hb))).1
  have hstill : ∀ z, z = x ∨ z = y → (w1.g.bodies z).type = .static → At z (Heavy0 .static True (w1.phys z)) w2 := by
    intro z hz hs
    obtain ⟨z1, z2, -⟩ := hm.still z hz hs
    have hsol : Solves E.env step w1.g s.w.gravity True z (fun u => At z (Heavy0 .static True (w1.phys z)) u ∧ (¬ True → (u.phys z).awake = true)) (At z (Heavy1 .static step.dt (w1.phys z)))
        (At z (Heavy1 .static step.dt (w1.phys z))) (· ∈ w1.g.contactList) :=
      heavy_solves hH (by rw [z1, z2]; exact slow_zero _) rfl (by decide) (fun _ => trivial) (fun _ => ⟨z1, z2⟩) (fun h => absurd trivial h) (fun _ => .inr ⟨z1, z2⟩)
    have h0 : At z (Heavy0 .static True (w1.phys z)) s.w := (m.still z hz hs).spares (buildIsland_spares s1) (fun _ _ _ => Heavy0.core)
    by_cases hin : z ∈ s.island.bodies
    · have h1 := (islandSolve_track hsol hE hsg rfl (fun _ => trivial) hfit hnd hC hJ hEn e).2 hin ⟨h0, fun h => absurd trivial h⟩
      exact ((hsol.again (by unfold World.typeOf; rw [hg]; exact hs) h1).1).spares (releaseStatics_spares v s.island.bodies) (fun _ _ _ => Heavy0.core)
    · exact (m.still z hz hs).spares (sp z hin) (fun _ _ _ => Heavy0.core)
  have hcore : ∀ z, z = x ∨ z = y → (w1.g.bodies z).type ≠ .static → (w2.phys z).island = false → (w2.phys z).core = (w1.phys z).core := by
    intro z hz hs hf
    have hn : ¬ ((w.phys z).island = true ∨ z ∈ s.island.bodies) := by rw [← hfl z hs, hf]; simp
    rw [not_or] at hn
    rw [(hout z hs hn.2).2.2]
    exact m.core z hz hs (by simpa using hn.1)
  have hI : s.island ∈ isls ++ [s.island] := by simp
  obtain ⟨v1, b1, b2, b3, b4, b5, b6, b7, b8⟩ := islandSolve_full hE hS hfit hnd e
  have hcon := buildIsland_con (c := c) s1
  have hw2c : w2.cst = v.cst := releaseStatics_cst _ _
  by_cases hcin : c ∈ s.island.contacts
  swap
  · -- another island
    have hcst : w2.cst c = w.cst c := by
      rw [hw2c, b7 c hcin]
      have hf := a2.cflag c
      rw [or_iff_left hcin] at hf
      have := Bool.eq_iff_iff.mpr hf
      rw [hcon, this]
    have hnot : ∀ z, z = x ∨ z = y → (w1.g.bodies z).type ≠ .static → z ∉ s.island.bodies := by
      intro z hz hs hin
      rcases hz with rfl | rfl
      · exact hcin (t'.closedC _ hI z hin hs c y hm.tr (.inl ⟨hm.bodyA, hm.bodyB⟩)).1
      · exact hcin (t'.closedC _ hI z hin hs c x hm.tr (.inr ⟨hm.bodyA, hm.bodyB⟩)).1
    have hvel : ∀ z, z = x ∨ z = y → velOf w2 z = velOf w z := by
      intro z hz
      by_cases hs : (w1.g.bodies z).type = .static
      · have q1 := (hstill z hz hs).toHeavyAs
        have q2 := (m.still z hz hs).toHeavyAs
        unfold velOf
        rw [q1.v, q1.w, q2.v, q2.w]
      · unfold velOf
        rw [core_eq (hout z hs (hnot z hz hs)).2.2]
    refine ⟨fr.gravity.trans m.gravity, hcore, hstill, by rw [hcst]; exact m.con, by rw [hcst]; exact m.fresh, fun hf => ?_⟩
    rw [hcst] at hf
    rcases m.done hf with ⟨z, hz, hs, h1, h2⟩ | h
    · left
      obtain ⟨o1, o2, -⟩ := hout z hs (hnot z hz hs)
      exact ⟨z, hz, hs, o1.trans h1, h2.imp (fun h => o2.trans h) (fun h => by rw [hvel z hz]; exact h)⟩
    · right
      unfold Holds at h ⊢
      rw [hcst, hvel x (.inl rfl), hvel y (.inr rfl)]
      exact h
  -- the island of the two bodies
  obtain ⟨xA, hxA, yB, hyB, hne, ex, ey⟩ := hfit.contacts c hcin
  rw [hsg] at ex ey
  rw [hm.bodyA] at ex; rw [hm.bodyB] at ey
  cases ex; cases ey
  have hin : ∀ z, z = x ∨ z = y → z ∈ s.island.bodies := by rintro z (rfl | rfl) <;> assumption
  obtain ⟨f1, f2, ⟨bz, hbz, hbt, by', hby⟩⟩ := a2.cfresh c hcin
  have hN : ∀ b ∈ s.island.bodies, (w1.g.bodies b).type ≠ .static → b = x ∨ b = y := by
    obtain ⟨sd, hsd, -, -, hst, hre⟩ := t'.reach _ hI
    have hbz' : bz = x ∨ bz = y := by
      have : Connects w1 c bz by' := t.kept.symm.connects hby
      rcases this with ⟨k, -⟩ | ⟨-, k⟩
      · rw [hm.bodyA] at k; cases k; exact .inl rfl
      · rw [hm.bodyB] at k; cases k; exact .inr rfl
    rw [h.g] at hbt
    intro b hb hs
    exact (reach_pair hm (hre b hb) hst hs).mpr ((reach_pair hm (hre bz hbz) hst hbt).mp hbz')
  have hcs : s.island.contacts = [c] := by
    have hall : ∀ c' ∈ s.island.contacts, c' = c := by
      intro c' hc'
      obtain ⟨-, g2, ⟨b, hb, hbs, q, hq⟩⟩ := a2.cfresh c' hc'
      rw [h.g] at hbs
      refine hm.only b (hN b hb hbs) hbs c' (t.kept.symm.transmits g2) ?_
      rcases t.kept.symm.connects hq with ⟨k, -⟩ | ⟨-, k⟩
      · exact .inl k
      · exact .inr k
    have hnd := a2.cnodup
    generalize s.island.contacts = l at hall hnd hcin
    match l with
    | [] => cases hcin
    | [a] => rw [hall a (by simp)]
    | a :: b :: l =>
      have h1 := hall a (by simp)
      have h2 := hall b (by simp)
      rw [h1, h2] at hnd
      simp at hnd
  have hjs : s.island.joints = [] := by
    rw [List.eq_nil_iff_forall_not_mem]
    intro j hj
    obtain ⟨-, b, hb, hbs, q, hq⟩ := a2.jfresh j hj
    rw [h.g] at hbs
    have hno := hm.joints b (hN b hb hbs) hbs j (hJ j hj)
    rcases (t.kept.symm.ties hq).ends with ⟨k, -⟩ | ⟨-, k⟩
    · exact hno.1 k
    · exact hno.2 k
  have hmf := m.fresh f1
  have hv1g : v1.g = w1.g := b1.trans hsg
  have hcm : (s.w.cst c).manifold = (w1.cst c).manifold := by rw [hcon]; exact hmf
  -- the bodies as the solver reads them
  have sready : ∀ z, z = x ∨ z = y → (s.w.phys z).sweep.c = (w1.phys z).sweep.c ∧ (s.w.phys z).sweep.a = (w1.phys z).sweep.a ∧ (s.w.phys z).sweep.localCenter = (w1.phys z).sweep.localCenter ∧
      (s.w.phys z).invMass = (w1.phys z).invMass ∧ (s.w.phys z).invI = (w1.phys z).invI ∧ (⟨(s.w.initState step.dt z).v, (s.w.initState step.dt z).w⟩ : Vel F) = drivenVel step.dt w1 z := by
    intro z hz
    have r := m.ready hm h.g hz (fun _ => hfresh z (hin z hz))
    have ec := core_eq (buildIsland_spares (b := z) s1).core
    have hini : s.w.initState step.dt z = w.initState step.dt z := by
      unfold initState World.typeOf
      rw [a2.kept.g, fr0.gravity, ec]
      rfl
    rw [hini, ec]
    exact r
  have hplace : ∀ z, z = x ∨ z = y → s.island.bodies[(v1.phys z).islandIndex.toNat]? = some z := fun z hz => b3.place (hin z hz)
  set states : List (BState F) := s.island.bodies.map (s.w.initState step.dt) with hstates
  have hstate : ∀ z, z = x ∨ z = y → states[(v1.phys z).islandIndex.toNat]? = some (s.w.initState step.dt z) := fun z hz => by rw [hstates]; simp [hplace z hz]
  have hlen : states.length = s.island.bodies.length := by rw [hstates]; simp
  have v1z : ∀ z, z = x ∨ z = y → (v1.phys z).invMass = (w1.phys z).invMass ∧ (v1.phys z).invI = (w1.phys z).invI ∧ (v1.phys z).sweep.localCenter = (w1.phys z).sweep.localCenter := by
    intro z hz
    obtain ⟨-, -, q3, q4, q5, -⟩ := sready z hz
    rw [b4, if_pos (hin z hz)]
    exact ⟨q4, q5, q3⟩
  obtain ⟨ci, hci, hcim, hcir, hcit, hcirA, hcirB, hciA, hciB, hcimA, hcimB, hciiA, hciiB, hclA, hclB⟩ : ∃ ci, v1.contactIn c = some ci ∧ ci.manifold = (w1.cst c).manifold ∧ ci.restitution = (w1.cst c).restitution ∧
      ci.threshold = (w1.cst c).restitutionThreshold ∧ ci.radiusA = (w1.g.fixtures (w1.g.contacts c).fA).shape.radius ∧ ci.radiusB = (w1.g.fixtures (w1.g.contacts c).fB).shape.radius ∧
      ci.indexA = (v1.phys x).islandIndex.toNat ∧ ci.indexB = (v1.phys y).islandIndex.toNat ∧ ci.invMassA = (w1.phys x).invMass ∧ ci.invMassB = (w1.phys y).invMass ∧
      ci.invIA = (w1.phys x).invI ∧ ci.invIB = (w1.phys y).invI ∧ ci.localCenterA = (w1.phys x).sweep.localCenter ∧ ci.localCenterB = (w1.phys y).sweep.localCenter := by
    obtain ⟨px1, px2, px3⟩ := v1z x (.inl rfl)
    obtain ⟨py1, py2, py3⟩ := v1z y (.inr rfl)
    have hcst1 : v1.cst c = { w1.cst c with island := (s.w.cst c).island } := by
      rw [b2, hcon, m.con.1, hmf]
    unfold World.contactIn World.bodyOf
    dsimp only
    rw [hv1g, hm.bodyA, hm.bodyB]
    refine ⟨_, rfl, ?_⟩
    dsimp only
    rw [hcst1]
    exact ⟨rfl, rfl, rfl, rfl, rfl, rfl, rfl, px1, py1, px2, py2, px3, py3⟩
  have hok : ci.Ok states.length := by
    refine ⟨by rw [hcim]; exact hm.sound.points, by rw [hcim]; exact hm.sound.circles, ?_, ?_, ?_, ?_, ?_, ?_, ?_, ?_, by rw [hcim]; exact hm.sound.normal⟩
    · rw [hciA, hlen]; exact b3.place_lt hxA
    · rw [hciB, hlen]; exact b3.place_lt hyB
    · intro he
      rw [hciA, hciB] at he
      exact hne (b3.same (hplace y (.inr rfl)) hxA he)
    · rw [hcimA]; exact (hm.mass x (.inl rfl)).1
    · rw [hcimB]; exact (hm.mass y (.inr rfl)).1
    · rw [hcimA, hcimB]; exact hm.some
    · rw [hciiA]; exact (hm.mass x (.inl rfl)).2
    · rw [hciiB]; exact (hm.mass y (.inr rfl)).2
  have hpos : ∀ z, z = x ∨ z = y → (World.positionsOf states).at' (v1.phys z).islandIndex.toNat = ⟨(w1.phys z).sweep.c, (w1.phys z).sweep.a⟩ := by
    intro z hz
    obtain ⟨q1, q2, -⟩ := sready z hz
    unfold World.positionsOf
    dsimp only
    rw [hstate z hz]
    dsimp only
    rw [← q1, ← q2]
    rfl
  have hvl : ∀ z, z = x ∨ z = y → (World.velocitiesOf states).at' (v1.phys z).islandIndex.toNat = drivenVel step.dt w1 z := by
    intro z hz
    obtain ⟨-, -, -, -, -, q6⟩ := sready z hz
    unfold World.velocitiesOf
    dsimp only
    rw [hstate z hz]
    exact q6
  have hxf : ∀ z, z = x ∨ z = y → Pos.xf ⟨(w1.phys z).sweep.c, (w1.phys z).sweep.a⟩ (w1.phys z).sweep.localCenter = (w1.phys z).xf := fun z hz => (hm.posed z hz).symm
  obtain ⟨r, mm, wm, p1, hv, hrm, hwm, hp1, hcc⟩ := velocity_one (step := step) hb hcs hjs hci hok (by rw [hcim]; exact hm.pushing) hd hvi (fun wm hwm => by
    unfold ContactIn.worldAt at hwm
    rw [hciA, hciB, hpos x (.inl rfl), hpos y (.inr rfl), hclA, hclB, hxf x (.inl rfl), hxf y (.inr rfl), hcim, hcirA, hcirB] at hwm
    exact hm.unit wm hwm)
  unfold ContactIn.worldAt at hwm
  rw [hciA, hciB, hpos x (.inl rfl), hpos y (.inr rfl), hclA, hclB, hxf x (.inl rfl), hxf y (.inr rfl), hcim, hcirA, hcirB] at hwm
  rw [hciA, hciB, hpos x (.inl rfl), hpos y (.inr rfl), hvl x (.inl rfl), hvl y (.inr rfl)] at hcc
  have hcst2 : w2.cst c = { s.w.cst c with manifold := storeImpulses (s.w.cst c).manifold (E.env.impulses v1 s.island step 0) } := by rw [hw2c]; exact b8 c hcs
  have hrst : Restamped (w1.cst c).manifold (w2.cst c).manifold := by
    rw [hcst2, hcm]; exact restamped_store _ _
  have hcst3 : w2.cst c = { w1.cst c with island := (w2.cst c).island, manifold := (w2.cst c).manifold } := by
    rw [hcst2, hcon, m.con.1]
  refine ⟨fr.gravity.trans m.gravity, hcore, hstill, ⟨hcst3, hrst⟩, fun hf => ?_, fun _ => ?_⟩
  · exfalso
    have := (a2.cflag c).mpr (.inr hcin)
    rw [hcst2] at hf
    dsimp only at hf
    rw [this] at hf; cases hf
  by_cases hl : Braked step.dt w1 x y w2
  · exact .inl hl
  right
  have hvel : ∀ z, z = x ∨ z = y → velOf w2 z = r.2.1.at' (v1.phys z).islandIndex.toNat := by
    intro z hz
    have hsv : E.env.solveVel v1 s.island step states (v1.phys z).islandIndex.toNat = ((r.2.1.at' (v1.phys z).islandIndex.toNat).v, (r.2.1.at' (v1.phys z).islandIndex.toNat).w) := by
      show (match E.velocity v1 s.island step states with
        | some r => fun i => ((r.2.1.at' i).v, (r.2.1.at' i).w)
        | none => fun i => (((World.velocitiesOf states).at' i).v, ((World.velocitiesOf states).at' i).w)) _ = _
      rw [hv]
    by_cases hs : (w1.g.bodies z).type = .static
    · have q := (hstill z hz hs).toHeavyAs
      obtain ⟨-, -, k3, k4, -⟩ := hm.still z hz hs
      have hh := hH.velocity v1 s.island step states _ z _ b3 (hplace z hz) (hstate z hz) ((v1z z hz).1.trans k3) ((v1z z hz).2.1.trans k4)
      rw [hsv] at hh
      have q6 := (sready z hz).2.2.2.2.2
      have hnd : w1.typeOf z ≠ .dynamic := by unfold World.typeOf; rw [hs]; decide
      have : r.2.1.at' (v1.phys z).islandIndex.toNat = drivenVel step.dt w1 z := by
        rw [← q6]
        simp only [Prod.mk.injEq] at hh
        ext1
        · exact hh.1
        · exact hh.2
      rw [this]
      unfold velOf drivenVel
      rw [if_neg hnd, q.v, q.w]
    · have hf2 : (w2.phys z).island = true := (hfl z hs).mpr (.inr (hin z hz))
      have hnn : ¬ ((w2.phys z).awake = false ∨ ¬ UnderLimits step.dt (velOf w2 z)) := fun hx => hl ⟨z, hz, hs, hf2, hx⟩
      rw [not_or, not_not] at hnn
      have hph : (w2.phys z).awake = (v.phys z).awake ∧ (w2.phys z).v = (v.phys z).v ∧ (w2.phys z).w = (v.phys z).w := by
        have := (releaseStatics_spares (b := z) v s.island.bodies).core
        refine ⟨(releaseStatics_keeps (bs := []) v s.island.bodies).awake z (fun h => by cases h), ?_⟩
        rw [core_eq this]
        exact ⟨rfl, rfl⟩
      have hx := (b6 _ z (hplace z hz) (by unfold World.typeOf; rw [hsg]; exact hs)).resolve_left (fun k => by rw [← hph.1] at k; exact hnn.1 k.1)
      rw [hsv, ← hph.2.1, ← hph.2.2] at hx
      exact clamp_under hr (u := velOf w2 z) hx hnn.2
  obtain ⟨q, hq⟩ : ∃ q, (w1.cst c).manifold.points[0]? = some q := by
    have : 0 < (w1.cst c).manifold.points.length := by rcases hm.sound.points with h | h <;> omega
    exact ⟨_, List.getElem?_eq_getElem this⟩
  refine ⟨wm, { q with normalImpulse := p1.normalImpulse, tangentImpulse := p1.tangentImpulse }, ?_, ?_, ?_⟩
  · rw [hrst.world]; exact hwm
  · have himp : E.env.impulses v1 s.island step 0 = mm.points.map fun p => (p.normalImpulse, p.tangentImpulse) := by
      have hbeg : Engine.begin v1 s.island step = states := by
        unfold Engine.begin
        rw [hstates]
        exact List.map_congr_left (fun b _ => b5 b)
      unfold Engine.env
      dsimp only
      rw [hbeg, hv]
      dsimp only
      rw [hrm]
      rfl
    rw [hcst2, hcm, himp]
    unfold storeImpulses
    simp only [List.getElem?_mapIdx, hq, Option.map_some, List.getElem?_map, hp1]
  · have hbo : CState.bounce (w2.cst c) = ci.bounce := by
      funext u
      unfold CState.bounce ContactIn.bounce
      rw [hcst3, hcir, hcit]
    rw [hvel x (.inl rfl), hvel y (.inr rfl), hbo]
    exact hcc

theorem seeds_bounce (hr : RootBelow F) (hE : LeavesBodies E.env) (hS : Silent E.env) (hH : HeavyStay E.env) (hb : E.block = true) {step : TimeStep F} {c x y : Nat} {w1 : World F}
    (hd : 0 ≤ step.dtRatio) (hvi : 1 ≤ step.velocityIterations) (hi : GInv w1.g) (hm : Meet w1 c x y) (l : List Nat) :
    (∀ y ∈ l, y ∈ w1.g.bodyList) → ∀ {w w' : World F} {isls isls' : List Island} {seen : List Nat}, GI w1 w isls → TI w1 w isls seen → BI step.dt w1 c x y w →
      l.foldlM (solveSeed E.env step) (w, isls) = some (w', isls') → GI w1 w' isls' ∧ TI w1 w' isls' (seen ++ l) ∧ BI step.dt w1 c x y w' := by
  have hP := silent_calm hS
  induction l with
  | nil => intro _ w w' isls isls' seen h t m e; cases e; rw [List.append_nil]; exact ⟨h, t, m⟩
  | cons a l ih =>
    intro hl w w' isls isls' seen h t m e
    have hl' : ∀ b ∈ l, b ∈ w1.g.bodyList := fun b hb => hl b (by simp [hb])
    have haa : a ∈ w1.g.bodyList := hl a (by simp)
    rw [List.foldlM_cons] at e
    have happ : seen ++ a :: l = (seen ++ [a]) ++ l := by simp
    rw [happ]
    rcases solveSeed_spec (env := E.env) (step := step) (isls := isls) (by rw [h.g]; exact hi) h.ends (show a ∈ w.g.bodyList by rw [h.g]; exact haa) with ⟨p, q⟩ | ⟨p, s, s1, a2, a3, a4, a5, q⟩
    · rw [q] at e
      refine ih hl' h ⟨t.toCI, t.awake, t.reach, t.onlyC, t.onlyJ, ?_⟩ m e
      intro b hb h1 h2 h3
      rcases List.mem_append.mp hb with hb | hb
      · exact t.covered b hb h1 h2 h3
      · rw [List.mem_singleton] at hb; subst hb
        by_contra hf
        rw [Bool.not_eq_true] at hf
        have := isSeed_iff.mpr ⟨hf, by rw [t.awake b haa h3 hf]; exact h1, by rw [h.g]; exact h2, by rw [h.g]; exact h3⟩
        rw [p] at this; cases this
    · rw [q] at e
      cases e1 : s.w.islandSolve E.env s.w.g.bodyCount s.island step with
      | none => rw [e1] at e; cases e
      | some v =>
        rw [e1] at e
        exact ih hl' (h.seed a2 a3 e1) (t.seed hP hi h p haa a2 a3 a4 e1) (m.seed hr hE hS hH hb hd hvi hi hm h t p s1 haa a2 a3 a4 e1) e

theorem clearIslandFlags_con (c : Nat) (w : World F) : SameCon c w w.clearIslandFlags := by
  unfold clearIslandFlags
  dsimp only
  refine SameCon.trans (w' := (w.g.bodyList.foldl (fun w b => w.setPhys b { w.phys b with island := false }) w)) (.of_eq ?_) (SameCon.trans (w' :=
    ((w.g.bodyList.foldl (fun w b => w.setPhys b { w.phys b with island := false }) w).g.contactList.foldl (fun w c => w.setCst c { w.cst c with island := false })
      (w.g.bodyList.foldl (fun w b => w.setPhys b { w.phys b with island := false }) w))) ?_ (.of_eq ?_))
  · exact foldl_inv (f := fun (w : World F) b => w.setPhys b { w.phys b with island := false }) (fun x : World F => x.cst = w.cst) rfl (fun _ _ _ h => h)
  · refine foldl_inv (f := fun (w : World F) c => w.setCst c { w.cst c with island := false }) (fun x : World F => SameCon c _ x) (.refl _ _) (fun e _ u h => h.trans ?_)
    unfold SameCon World.setCst
    dsimp only
    by_cases hc : c = e
    · rw [hc, upd_same]
    · rw [upd_other _ _ hc]
  · exact foldl_inv (f := fun (w : World F) j => { w with jIsland := upd w.jIsland j false }) (fun x : World F => x.cst = _) rfl (fun _ _ _ h => h)

theorem solveIslands_bounce (hr : RootBelow F) (hE : LeavesBodies E.env) (hS : Silent E.env) (hH : HeavyStay E.env) (hb : E.block = true) {step : TimeStep F} {c x y : Nat} {w w' : World F}
    {isls : List Island} (hd : 0 ≤ step.dtRatio) (hvi : 1 ≤ step.velocityIterations) (hw : GInv w.g) (hm : Meet w c x y) (e : w.solveIslands E.env step = some (w', isls))
    (hend : ∀ z, z = x ∨ z = y → (w.g.bodies z).type ≠ .static → (w'.phys z).awake = true ∧ UnderLimits step.dt (velOf w' z)) :
    Holds step.dt w c x y w' := by
  have m := (clearIslandFlags_mild w).toWFrame
  unfold solveIslands at e
  have hcon := clearIslandFlags_con c w
  have hM : BI step.dt w c x y w.clearIslandFlags := by
    have hcf : (w.clearIslandFlags.cst c).island = false := (clearIslandFlags_spec w).2.1 c hm.tr.mem
    have hman : (w.clearIslandFlags.cst c).manifold = (w.cst c).manifold := by rw [hcon]
    refine ⟨m.gravity, fun z _ _ _ => (clearIslandFlags_spares w).core, fun z hz hs => ?_, ⟨?_, by rw [hman]; exact .refl _⟩, fun _ => hman, fun hf => by rw [hcf] at hf; cases hf⟩
    · obtain ⟨k1, k2, k3, k4, k5, k6⟩ := hm.still z hz hs
      have h0 : At z (Heavy0 .static True (w.phys z)) w := ⟨⟨hs, k3, k4, rfl, rfl, rfl, rfl, hm.posed z hz, fun h => absurd ⟨k1, k2⟩ h⟩, rfl, rfl, fun _ => ⟨k5, k6⟩⟩
      exact h0.spares (clearIslandFlags_spares w) (fun _ _ _ => Heavy0.core)
    · rw [hman]
      exact hcon
  obtain ⟨g, t, mi⟩ := seeds_bounce hr hE hS hH hb hd hvi hw hm _ (fun y hy => by rw [m.g] at hy; exact hy) (GI.start w) (TI.start w) hM e
  obtain ⟨z, hz, hs⟩ : ∃ z, (z = x ∨ z = y) ∧ (w.g.bodies z).type ≠ .static := by
    by_contra hn
    push Not at hn
    have h1 := (hm.still x (.inl rfl) (hn x (.inl rfl))).2.2.1
    have h2 := (hm.still y (.inr rfl) (hn y (.inr rfl))).2.2.1
    have := hm.some
    rw [h1, h2, add_zero] at this
    exact lt_irrefl _ this
  have hflag : (w'.phys z).island = true := by
    by_contra hf
    rw [Bool.not_eq_true] at hf
    have hx := t.awake z (hm.mem z hz) hs hf
    rw [(hend z hz hs).1] at hx
    have := t.covered z (by rw [m.g]; simpa using hm.mem z hz) hx.symm (hm.enabled z hz) hs
    rw [hf] at this; cases this
  obtain ⟨-, I, hI, hzI⟩ := (g.flag z (hm.mem z hz)).mp hflag
  have hcI : c ∈ I.contacts := by
    rcases hz with rfl | rfl
    · exact (t.closedC I hI z hzI hs c y hm.tr (.inl ⟨hm.bodyA, hm.bodyB⟩)).1
    · exact (t.closedC I hI z hzI hs c x hm.tr (.inr ⟨hm.bodyA, hm.bodyB⟩)).1
  rcases mi.done ((g.cflag c hm.tr.mem).mpr ⟨I, hI, hcI⟩) with ⟨u, hu, hus, -, h⟩ | h
  · exfalso
    obtain ⟨e1, e2⟩ := hend u hu hus
    rcases h with h | h
    · rw [e1] at h; cases h
    · exact h e2
  · exact h

theorem islandSolve_restamped (hS : Silent E.env) {v v' : World F} {cap : Nat} {isl : Island} {step : TimeStep F} (c : Nat)
    (e : v.islandSolve E.env cap isl step = some v') : Restamped (v.cst c).manifold (v'.cst c).manifold := by
  obtain ⟨u, r, e1, rfl⟩ := islandSolve_inv e
  have m0 : Restamped (v.cst c).manifold (u.cst c).manifold := by
    unfold islandMove at e1
    split at e1
    · cases e1
    simp only [Option.bind_eq_bind, Option.bind_eq_some_iff] at e1
    obtain ⟨v3, e1, e'⟩ := e1
    cases e'
    rw [(report_silent hS e1).trans (writeBack_cst _ _ _)]
    refine foldl_inv (fun x : World F => Restamped (v.cst c).manifold (x.cst c).manifold) ?_ (fun x _ y h => ?_)
    · exact foldl_inv (fun x : World F => Restamped (v.cst c).manifold (x.cst c).manifold) (.refl _) (fun _ _ _ h => h)
    · unfold World.setCst
      dsimp only
      by_cases hc : c = x.1
      · subst hc
        rw [upd_same]
        exact h.trans (restamped_store _ _)
      · rw [upd_other _ _ hc]; exact h
  split
  · rw [sleepIsland_cst]; exact m0
  · exact m0

theorem seeds_restamped (hS : Silent E.env) {step : TimeStep F} (c : Nat) (l : List Nat) : ∀ {u u' : World F} {i i' : List Island},
    l.foldlM (solveSeed E.env step) (u, i) = some (u', i') → Restamped (u.cst c).manifold (u'.cst c).manifold := by
  induction l with
  | nil => intro u u' i i' e; cases e; exact .refl _
  | cons a l ih =>
    intro u u' i i' e
    rw [List.foldlM_cons] at e
    simp only [Option.bind_eq_bind, Option.bind_eq_some_iff] at e
    obtain ⟨⟨u1, i1⟩, e1, e2⟩ := e
    refine Restamped.trans ?_ (ih e2)
    unfold solveSeed at e1
    split at e1
    · cases e1; exact .refl _
    simp only [Option.bind_eq_bind, Option.bind_eq_some_iff] at e1
    obtain ⟨s, e3, v, e4, e5⟩ := e1
    cases e5
    rw [releaseStatics_cst]
    have h0 : (s.w.cst c).manifold = (u.cst c).manifold := by rw [buildIsland_con (c := c) e3]
    rw [← h0]
    exact islandSolve_restamped hS c e4

theorem solve_bounce (hr : RootBelow F) (hE : LeavesBodies E.env) (hS : Silent E.env) (hH : HeavyStay E.env) (hb : E.block = true) {step : TimeStep F} {c x y : Nat} {w w' : World F}
    (hd : 0 ≤ step.dtRatio) (hvi : 1 ≤ step.velocityIterations) (hw : WInv w) (htr : Transmits w' c) (e : w.solve E.env step = some w')
    (hm : Transmits w c → w'.g.contacts c = w.g.contacts c → Restamped (w.cst c).manifold (w'.cst c).manifold → (∀ c, Transmits w c → Transmits w' c ∧ w'.g.contacts c = w.g.contacts c ∧ w'.g.fixtures = w.g.fixtures) → Meet w c x y)
    (hend : ∀ z, z = x ∨ z = y → (w.g.bodies z).type ≠ .static → (w'.phys z).awake = true ∧ UnderLimits step.dt (velOf w' z)) :
    Holds step.dt w c x y w' ∧ w'.g.contacts c = w.g.contacts c ∧ w'.g.fixtures = w.g.fixtures := by
  have hP := silent_calm hS
  have hPL : PostSolveLinks E.env := fun x y c h => (hP x y c h).2
  have htrs : ∀ c, Transmits w c → Transmits w' c ∧ w'.g.contacts c = w.g.contacts c ∧ w'.g.fixtures = w.g.fixtures := fun c hc => solve_transmits hPL hw e hc
  unfold solve at e
  simp only [Option.bind_eq_bind, Option.bind_eq_some_iff] at e
  obtain ⟨⟨w1, isl⟩, e1, w2, e2, e3⟩ := e
  have m1 := (solveIslands_mild e1).toWFrame
  dsimp only at e2
  have b2 : WInv w2 ∧ w2.fattr = w1.fattr ∧ w2.cst = w1.cst ∧ w2.g = w1.g ∧ w2.phys = w1.phys := by
    refine foldlM_inv (fun x : World F => WInv x ∧ x.fattr = w1.fattr ∧ x.cst = w1.cst ∧ x.g = w1.g ∧ x.phys = w1.phys) e2 ⟨hw.frame m1.g m1.bp, rfl, rfl, rfl, rfl⟩ ?_
    intro b _ x x' hx hv
    split at hv
    · cases hv; exact hx
    split at hv
    · cases hv; exact hx
    obtain ⟨w2, k1, k2, k3⟩ := synchronizeFixtures_spec b hx.1.pinv
    rw [k1] at hv
    cases hv
    have g : Good E.env x x' := .bpf hx.1 k2 k3
    exact ⟨g.winv, (by rw [k2.eq]; exact hx.2.1), (by rw [k2.eq]; exact hx.2.2.1), (by rw [k2.eq]; exact hx.2.2.2.1), k2.phys.trans hx.2.2.2.2⟩
  obtain ⟨h2, f2, c2, g2, p2⟩ := b2
  obtain ⟨w3, x3, hw', -⟩ := findNewContacts_spec h2 e3
  have hph : w'.phys = w1.phys := (findNewContacts_phys e3).trans p2
  have hfa : w'.fattr = w1.fattr := by rw [hw']; exact x3.fattr.trans f2
  have hwg : w'.g = w3.g := by rw [hw']
  have hwc : w'.cst = w3.cst := by rw [hw']
  have kept : Kept w w1 := by
    have := (seeds_spec (env := E.env) (step := step) hw.toGInv w.clearIslandFlags.g.bodyList (fun y hy => by rw [(clearIslandFlags_mild w).g] at hy; exact hy) (GI.start w) (fun _ => TI.start w) (fun _ => CI.start w)).2 w1 isl e1
    exact (this.2.2 hPL).kept
  have hlt : c < w2.g.nextContact := by
    by_contra hge
    have := (x3.new c (by rw [← hwg]; exact htr.mem) (not_lt.mp hge)).1
    rw [← hwc, htr.touching] at this
    cases this
  obtain ⟨o1, o2, o3⟩ := x3.old c hlt
  have hcst : w'.cst c = w1.cst c := by rw [hwc, o2, c2]
  have hcon : w'.g.contacts c = w.g.contacts c := by rw [hwg, o1, g2, kept.g]
  have htw : Transmits w c := by
    refine ⟨?_, ?_, ?_, ?_, ?_⟩
    · have := o3.mp (by rw [← hwg]; exact htr.mem)
      rwa [g2, kept.g] at this
    · rw [← kept.enabled, ← hcst]; exact htr.enabled
    · rw [← kept.touching, ← hcst]; exact htr.touching
    · rw [← kept.sensor, ← hfa, ← hcon]; exact htr.solidA
    · rw [← kept.sensor, ← hfa, ← hcon]; exact htr.solidB
  have hre : Restamped (w.cst c).manifold (w1.cst c).manifold := by
    have h0 : (w.clearIslandFlags.cst c).manifold = (w.cst c).manifold := by rw [clearIslandFlags_con c w]
    have := seeds_restamped hS c _ e1
    rwa [h0] at this
  have hM := hm htw hcon (by rw [hcst]; exact hre) htrs
  have key := solveIslands_bounce hr hE hS hH hb hd hvi hw.toGInv hM e1 (fun z hz hs => by
    have := hend z hz hs
    unfold velOf at this ⊢
    rw [hph] at this; exact this)
  refine ⟨?_, hcon, (htrs c htw).2.2⟩
  unfold Holds velOf at key ⊢
  rw [hcst, hph]
  exact key

/-- The law of impact for a whole step. -/
theorem step_bounce (hr : RootBelow F) (hE : LeavesBodies E.env) (hC : CallbacksTame E.env) (hS : Silent E.env) (hH : HeavyStay E.env) (hb : E.block = true) {c x y : Nat}
    {w w' : World F} {dt : F} {vi pi : Nat} (hw : WInv w) (hc : w.stepComplete = true) (hcont : w.continuous = false) (hdt : 0 < dt) (hvi : 1 ≤ vi)
    (hcons : ∀ z ∈ w.g.bodyList, Consistent (w.typeOf z) (w.phys z)) (hrest : ∀ z ∈ w.g.bodyList, Rests (w.typeOf z) (w.phys z)) (hpr : Pressing w)
    (hM : OnlyMeet w' c x y) (hmass : ∀ z, z = x ∨ z = y → 0 ≤ (w.phys z).invMass ∧ 0 ≤ (w.phys z).invI) (hsome : 0 < (w.phys x).invMass + (w.phys y).invMass)
    (hsound : Sound (w'.cst c).manifold)
    (hunit : ∀ wm, worldManifold (w'.cst c).manifold (w.phys x).xf (w'.g.fixtures (w'.g.contacts c).fA).shape.radius (w.phys y).xf (w'.g.fixtures (w'.g.contacts c).fB).shape.radius = some wm →
      dot wm.normal wm.normal = 1)
    (hend : ∀ z, z = x ∨ z = y → w.typeOf z ≠ .static → (w'.phys z).awake = true ∧ UnderLimits dt (velOf w' z)) (e : w.step E.env dt vi pi = some w') :
    ObeysImpact dt w w' c x y := by
  unfold step at e
  simp only [Option.bind_eq_bind, Option.bind_eq_some_iff] at e
  obtain ⟨w1, e1, w2, e2, e3⟩ := e
  unfold stepLocked at e2
  simp only [Option.bind_eq_bind, Option.bind_eq_some_iff] at e2
  obtain ⟨w3, e4, w4, e5, w5, e6, e7⟩ := e2
  have c1 : ∀ b, Calms b w w1 := by
    intro b
    unfold stepBegin at e1
    split at e1
    · simp only [Option.bind_eq_bind, Option.bind_eq_some_iff] at e1
      obtain ⟨v, e1, e1'⟩ := e1
      cases e1'
      exact ((findNewContacts_spares hw e1).trans (.unmoved (w := v) (w' := { v with newContacts := false }) rfl rfl rfl)).calms
    · cases e1; exact (Spares.refl _).calms
  obtain ⟨v, g1, rfl, -⟩ := stepBegin_good hw e1
  have hw1 : WInv { v with newContacts := false, locked := true } := g1.winv.frame rfl rfl
  obtain ⟨g3, -⟩ := collide_good hw1 e4
  have c3 : ∀ b, Calms b w w3 := fun b => ((c1 b).trans (Spares.unmoved (w := { v with newContacts := false }) (w' := { v with newContacts := false, locked := true }) rfl rfl rfl).calms).trans (collide_calms hE hw1 e4)
  have lists : SameLists w.g w3.g := by
    have a1 := g3.body
    have a2 := g3.eq
    dsimp only at a1 a2
    exact ⟨fun y => by rw [a1, g1.body], by rw [a2, g1.eq]⟩
  have hr3 : w3.gravity = w.gravity ∧ w3.allowSleep = w.allowSleep ∧ w3.continuous = w.continuous ∧ w3.stepComplete = w.stepComplete := by
    refine ⟨g3.rest.gravity.trans g1.rest.gravity, g3.rest.allowSleep.trans g1.rest.allowSleep, g3.rest.continuous.trans g1.rest.continuous, g3.rest.stepComplete.trans g1.rest.stepComplete⟩
  have hts : World.timeStep { { v with newContacts := false } with locked := true } dt vi pi = w.timeStep dt vi pi := by
    unfold World.timeStep
    dsimp only
    rw [g1.rest.invDt0, show v.warmStarting = w.warmStarting by rw [g1.rest.eq]]
  rw [hts] at e5 e6 e7
  have hd : (w.timeStep dt vi pi).dt = dt := rfl
  rw [hd] at e5 e6 e7
  rw [if_pos ⟨hr3.2.2.2.trans hc, hdt⟩] at e5
  have g4 := solve_good g3.winv e5
  rw [if_neg (fun h => by
    have := h.1
    rw [g4.rest.continuous, hr3.2.2.1, hcont] at this; cases this)] at e6
  cases e6

  have hb4 : w4.g.bodyList = w.g.bodyList := by rw [g4.bodyList, lists.eq]
  have hnd4 : w4.g.bodyList.Nodup := g4.winv.body.nodup
  have fin : (∀ b ∈ w.g.bodyList, (w'.phys b).v = (w4.phys b).v ∧ (w'.phys b).w = (w4.phys b).w ∧ (w'.phys b).awake = (w4.phys b).awake) ∧ w'.g = w4.g ∧ w'.cst = w4.cst ∧ w'.fattr = w4.fattr := by
    cases e3
    cases e7
    generalize hx : (if dt > 0 then { w4 with invDt0 := (w.timeStep dt vi pi).invDt } else w4) = x
    have hx' : x.phys = w4.phys ∧ x.g = w4.g ∧ x.bp = w4.bp ∧ x.cst = w4.cst ∧ x.fattr = w4.fattr := by rw [← hx]; split <;> exact ⟨rfl, rfl, rfl, rfl, rfl⟩
    obtain ⟨x1, x2, x3, x4, x5⟩ := hx'
    split
    · have hnd : x.g.bodyList.Nodup := by rw [x2]; exact hnd4
      have fc : x.clearForcesAll.cst = x.cst ∧ x.clearForcesAll.fattr = x.fattr ∧ x.clearForcesAll.g = x.g := by
        unfold clearForcesAll
        refine foldl_inv (fun u : World F => u.cst = x.cst ∧ u.fattr = x.fattr ∧ u.g = x.g) ⟨rfl, rfl, rfl⟩ ?_
        intro y _ u h
        exact h
      refine ⟨fun b hb => ?_, fc.2.2.trans x2, fc.1.trans x4, fc.2.1.trans x5⟩
      obtain ⟨t1, t2, t3⟩ := clearForcesAll_phys (w := x) (b := b) hnd (by rw [x2, hb4]; exact hb)
      show (x.clearForcesAll.phys b).v = _ ∧ (x.clearForcesAll.phys b).w = _ ∧ (x.clearForcesAll.phys b).awake = _
      rw [t1, x1]
      exact ⟨rfl, rfl, rfl⟩
    · exact ⟨fun b hb => by show (x.phys b).v = _ ∧ (x.phys b).w = _ ∧ (x.phys b).awake = _; rw [x1]; exact ⟨rfl, rfl, rfl⟩, x2, x4, x5⟩
  obtain ⟨fin, fg, fcst, ffa⟩ := fin
  have hcore : ∀ b, (w3.phys b).core = (w.phys b).core := fun b => (c3 b).core
  have htr4 : Transmits w4 c := by
    have t := hM.transmits
    exact ⟨by rw [← fg]; exact t.mem, by rw [← fcst]; exact t.enabled, by rw [← fcst]; exact t.touching, by rw [← fg, ← ffa]; exact t.solidA, by rw [← fg, ← ffa]; exact t.solidB⟩
  have hpr3 : Pressing w3 := by
    have k1 : Pressing { v with newContacts := false } := (stepBegin_keep2 e1).push hpr
    exact (collide_keep2 hC e4).push k1
  have ht4 : ∀ b, w4.typeOf b = w.typeOf b := fun b => by
    unfold World.typeOf
    rw [g4.body, lists.body]
  obtain ⟨-, hok⟩ : True ∧ ∀ z, z = x ∨ z = y → z ∈ w.g.bodyList ∧ (w.g.bodies z).enabled = true := by
    refine ⟨trivial, ?_⟩
    obtain ⟨bA, bB, o1, o2, -, ⟨pA, m1, n1, q1, -⟩, ⟨pB, m2, n2, q2, -⟩, -⟩ := g4.winv.ok c htr4.mem
    have hA := hM.bodyA
    have hB := hM.bodyB
    rw [fg] at hA hB
    rw [hA] at q1; rw [hB] at q2
    cases q1; cases q2
    rw [hb4] at m1 m2
    have hen : ∀ b, (w4.g.bodies b).enabled = (w.g.bodies b).enabled := fun b => by rw [g4.body, lists.body]
    rw [hen] at n1 n2
    rintro z (rfl | rfl)
    · exact ⟨m1, n1⟩
    · exact ⟨m2, n2⟩
  have ht3 : ∀ b, w3.typeOf b = w.typeOf b := fun b => by
    unfold World.typeOf
    rw [lists.body]
  have hvel : ∀ z, z = x ∨ z = y → velOf w' z = velOf w4 z := fun z hz => by
    unfold velOf
    rw [(fin z (hok z hz).1).1, (fin z (hok z hz).1).2.1]
  have key := solve_bounce hr hE hS hH hb (step := w.timeStep dt vi pi) (c := c) (x := x) (y := y) (timeStep_pos hpr.2 hdt).1 hvi g3.winv htr4 e5 (fun htw hcon hso htrs => by
    obtain ⟨-, -, hfx⟩ := htrs c htw
    have hA := hM.bodyA
    have hB := hM.bodyB
    rw [fg, hcon, hfx] at hA hB
    refine ⟨htw, hA, hB, fun z hz => by rw [lists.eq]; exact (hok z hz).1, fun z hz => by rw [lists.body]; exact (hok z hz).2, fun z hz hs c' hc' ho => ?_, fun z hz hs j hj => ?_,
      fun z hz => by rw [core_eq (hcore z)]; exact hmass z hz, by rw [core_eq (hcore x), core_eq (hcore y)]; exact hsome, fun z hz hs => ?_, fun z hz => ?_, hpr3.1 c,
      fun wm hwm => hunit wm ?_, hso.sound (by rw [← fcst]; exact hsound)⟩
    · obtain ⟨t1, t2, t3⟩ := htrs c' hc'
      refine hM.only z hz ?_ c' ⟨by rw [fg]; exact t1.mem, by rw [fcst]; exact t1.enabled, by rw [fcst]; exact t1.touching, by rw [fg, ffa]; exact t1.solidA, by rw [fg, ffa]; exact t1.solidB⟩ ?_
      · unfold World.typeOf; rw [fg, g4.body]; exact hs
      · unfold OfBody at ho ⊢
        rw [fg, t2, t3]; exact ho
    · have hjo : w4.g.joints = w3.g.joints ∧ w4.g.jointList = w3.g.jointList := by rw [g4.eq]; exact ⟨rfl, rfl⟩
      have := hM.joints z hz (by unfold World.typeOf; rw [fg, g4.body]; exact hs) j (by rw [fg, hjo.2]; exact hj)
      rw [fg, hjo.1] at this; exact this
    · have hs' : w.typeOf z = .static := by rw [← ht3]; exact hs
      obtain ⟨r1, r2, r3, r4⟩ := hrest z (hok z hz).1 hs'
      obtain ⟨-, k2, -, k4⟩ := (hcons z (hok z hz).1).heavy (by rw [hs']; decide)
      rw [core_eq (hcore z)]
      exact ⟨r1, r2, k2, k4, r3, r4⟩
    · have hcz := hcons z (hok z hz).1
      rw [posed_iff, core_eq (hcore z)]
      exact ⟨hcz.rotation, hcz.center⟩
    · rw [fcst, fg, hcon, hfx, ← show (w3.phys x).xf = (w.phys x).xf by rw [core_eq (hcore x)], ← show (w3.phys y).xf = (w.phys y).xf by rw [core_eq (hcore y)], hso.world]
      exact hwm) (fun z hz hs => by
    have := hend z hz (by rw [← ht3]; exact hs)
    rw [hvel z hz, (fin z (hok z hz).1).2.2] at this
    exact this)
  have hdr : ∀ z, drivenVel dt w3 z = drivenVel dt w z := fun z => by
    unfold drivenVel
    rw [ht3, hr3.1, freeV_core (hcore z), show freeW dt (w3.phys z) = freeW dt (w.phys z) by rw [core_eq (hcore z)]; rfl, core_eq (hcore z)]
  obtain ⟨⟨wm, p, k1, k2, k3⟩, k4, k5⟩ := key
  refine ⟨wm, p, ?_, by rw [fcst]; exact k2, ?_⟩
  · rw [fcst, fg, k4, k5, ← show (w3.phys x).xf = (w.phys x).xf by rw [core_eq (hcore x)], ← show (w3.phys y).xf = (w.phys y).xf by rw [core_eq (hcore y)]]
    exact k1
  · rw [fcst, hvel x (.inl rfl), hvel y (.inr rfl), ← hdr x, ← hdr y, ← show (w3.phys x).sweep = (w.phys x).sweep by rw [core_eq (hcore x)], ← show (w3.phys y).sweep = (w.phys y).sweep by rw [core_eq (hcore y)]]
    exact k3

end
end B2
