import Verif.Proofs.WorldQuiet
import Verif.Proofs.Momentum
import Verif.Proofs.Centre
import Verif.Proofs.WorldFree
import Verif.Proofs.WorldTouch
import Verif.Spec.Momentum

/-! # Momentum through a step -/
set_option linter.unusedSectionVars false
namespace B2
open World Spec
section
variable {F : Type} [Field F] [LinearOrder F] [IsStrictOrderedRing F] [Elem F]
variable {E : Engine F}

/-- One of the two coordinates. -/
inductive Coord : (Vec2 F → F) → Prop
  | x : Coord Vec2.x
  | y : Coord Vec2.y

theorem momentum_coord {M : Nat → F} {u v : Arr (Vel F)} (h : momentum M u = momentum M v) {π : Vec2 F → F} (hπ : Coord π) :
    ∑ i ∈ Finset.range u.len, M i * π (u.at' i).v = ∑ i ∈ Finset.range v.len, M i * π (v.at' i).v := by
  unfold momentum at h
  cases hπ
  · exact congrArg Vec2.x h
  · exact congrArg Vec2.y h

theorem velocity_len {w : World F} {isl : Island} {step : TimeStep F} {states : List (BState F)} {r : List (Joint F) × Arr (Vel F) × List (Manifold F)}
    (e : E.velocity w isl step states = some r) : r.2.1.len = states.length := by
  unfold Engine.velocity at e
  obtain ⟨cs, e1, e2⟩ := Option.bind_eq_some_iff.1 e
  exact (islandVelocity_rel (R := fun v v' => v'.len = v.len) (fun _ => rfl) (fun _ _ _ h h' => h'.trans h) (T := fun _ => True) (fun _ _ => trivial)
    (fun _ _ _ _ _ h => (Joint.initVel_pushed h).1) (fun _ _ _ _ h => h.len) (fun _ _ _ _ _ _ ⟨_, _, _, _, _, _, h⟩ => by rw [h]) e2).2

theorem env_balance {w : World F} {isl : Island} {step : TimeStep F} {W : Nat → F} (hs : Seated E) (hf : Fitted w isl) (hb : Balanced E w isl W)
    {states : List (BState F)} {π : Vec2 F → F} (hπ : Coord π) :
    ∑ i ∈ Finset.range states.length, W (isl.bodies.getD i 0) * π (E.env.solveVel w isl step states i).1 =
      ∑ i ∈ Finset.range states.length, W (isl.bodies.getD i 0) * π ((World.velocitiesOf states).at' i).v := by
  show ∑ i ∈ Finset.range states.length, W (isl.bodies.getD i 0) * π ((match E.velocity w isl step states with
    | some r => fun i => ((r.2.1.at' i).v, (r.2.1.at' i).w)
    | none => fun i => (((World.velocitiesOf states).at' i).v, ((World.velocitiesOf states).at' i).w) : Nat → Vec2 F × F) i).1 = _
  cases e : E.velocity w isl step states with
  | none => rfl
  | some r =>
    have := momentum_coord (velocity_balance hs hf hb e).2 hπ
    rw [velocity_len e] at this
    exact this

theorem centre_coord {M : Nat → F} {u v : Arr (Pos F)} (h : centre M u = centre M v) {π : Vec2 F → F} (hπ : Coord π) :
    ∑ i ∈ Finset.range u.len, M i * π (u.at' i).c = ∑ i ∈ Finset.range v.len, M i * π (v.at' i).c := by
  cases hπ
  · exact congrArg Vec2.x h
  · exact congrArg Vec2.y h

theorem position_len {w : World F} {isl : Island} {step : TimeStep F} (hs : Seated E) (hf : Fitted w isl) {W : Nat → F} (hb : Balanced E w isl W) {states : List (BState F)} {r : Arr (Pos F) × Bool}
    (e : E.position w isl step states = some r) : r.1.len = states.length := by
  unfold Engine.position at e
  simp only [Option.bind_eq_bind, Option.bind_eq_some_iff] at e
  obtain ⟨q, e1, cs, e2, pcs, e3, e4⟩ := e
  have hj := (velocity_balance hs hf hb e1).1
  exact islandPositions_rel (R := fun v v' => v'.len = v.len) (fun _ => rfl) (fun _ _ _ h h' => h'.trans h) (T := fun _ => True)
    (fun _ _ _ _ h => h.len) (fun _ _ _ _ _ _ _ _ => rfl) (fun j hj' => ⟨(hj j hj').2, trivial⟩) e4

theorem env_centre {w : World F} {isl : Island} {step : TimeStep F} {W : Nat → F} (hs : Seated E) (hf : Fitted w isl) (hb : Balanced E w isl W)
    {states : List (BState F)} {π : Vec2 F → F} (hπ : Coord π) :
    ∑ i ∈ Finset.range states.length, W (isl.bodies.getD i 0) * π ((E.env.solvePos w isl step states).1 i).1 =
      ∑ i ∈ Finset.range states.length, W (isl.bodies.getD i 0) * π ((World.positionsOf states).at' i).c := by
  simp only [Engine.env]
  cases e : E.position w isl step states with
  | none => rfl
  | some r =>
    have := centre_coord (position_centre hs hf hb e) hπ
    rw [position_len hs hf hb e] at this
    exact this

theorem sum_places {l : List Nat} (hn : l.Nodup) {f : Nat → F} {g : Nat → F} (h : ∀ i b, l[i]? = some b → f i = g b) :
    ∑ i ∈ Finset.range l.length, f i = ∑ b ∈ l.toFinset, g b := by
  refine Finset.sum_bij (fun i hi => l[i]'(Finset.mem_range.mp hi)) (fun i hi => ?_) (fun i hi j hj e => ?_) (fun b hb => ?_) (fun i hi => ?_)
  · exact List.mem_toFinset.mpr (List.getElem_mem _)
  · exact (List.Nodup.getElem_inj_iff hn).mp e
  · obtain ⟨i, hi, rfl⟩ := List.getElem_of_mem (List.mem_toFinset.mp hb)
    exact ⟨i, Finset.mem_range.mpr hi, rfl⟩
  · exact h i _ (List.getElem?_eq_getElem _)

/-- What moving an island makes of the velocities of its bodies. -/
theorem islandMove_velocity (hE : LeavesBodies E.env) {v v' : World F} {cap : Nat} {isl : Island} {step : TimeStep F} {r : Bool} (hx : Fitted v isl) (hnd : isl.bodies.Nodup)
    (e : v.islandMove E.env cap isl step = some (v', r)) : ∃ v1 : World F, v1.g = v.g ∧ Fitted v1 isl ∧ (∀ b, (v1.phys b).invMass = (v.phys b).invMass) ∧
      ∃ st : List (BState F), st.length = isl.bodies.length ∧
      ∀ i b, isl.bodies[i]? = some b → (v'.phys b).v = (clampVelocity step.dt (E.env.solveVel v1 isl step (isl.bodies.map (v.initState step.dt)) i).1
        (E.env.solveVel v1 isl step (isl.bodies.map (v.initState step.dt)) i).2).1 ∧ (v'.phys b).sweep.c = ((E.env.solvePos v1 isl step st).1 i).1 ∧
        ((World.positionsOf st).at' i).c = (v.phys b).sweep.c + step.dt * (v'.phys b).v := by
  unfold islandMove at e
  split at e
  · cases e
  simp only [Option.bind_eq_bind, Option.bind_eq_some_iff] at e
  obtain ⟨v3, e, e'⟩ := e
  cases e'
  set states : List (BState F) := isl.bodies.map (v.initState step.dt) with hst
  set v1 : World F := isl.bodies.foldl (fun w b => w.setPhys b { w.phys b with sweep := { (w.phys b).sweep with c0 := (w.phys b).sweep.c, a0 := (w.phys b).sweep.a } }) v with hv1
  obtain ⟨f1, f2, f3⟩ := foldl_setPhys_spec (fun w y => { w.phys y with sweep := { (w.phys y).sweep with c0 := (w.phys y).sweep.c, a0 := (w.phys y).sweep.a } })
    (fun w w' y h => by dsimp only; rw [h]) isl.bodies v hnd
  rw [← hv1] at f1 f2 f3
  set st1 : List (BState F) := (setVelocities states (E.env.solveVel v1 isl step states)).map (integratePosition step.dt) with hst1
  set v2 : World F := isl.contacts.zipIdx.foldl (fun w x => w.setCst x.1 { w.cst x.1 with manifold := storeImpulses (w.cst x.1).manifold (E.env.impulses v1 isl step x.2) }) v1 with hv2
  obtain ⟨q1, q2, q3⟩ := setCsts_same isl.contacts.zipIdx (fun _ x => x.1)
    (fun w x => { w.cst x.1 with manifold := storeImpulses (w.cst x.1).manifold (E.env.impulses v1 isl step x.2) }) v1
  rw [← hv2] at q1 q2 q3
  clear_value v1 v2
  set st2 : List (BState F) := setPositions st1 (E.env.solvePos v1 isl step st1).1 with hst2
  have hlen : isl.bodies.length = st2.length := by rw [hst2, hst1, hst]; simp [setVelocities, setPositions]
  refine ⟨v1, f1, ?_, fun b => ?_, st1, by rw [hst1, hst]; simp [setVelocities], fun i b hi => ?_⟩
  · refine ⟨fun j y hy => ?_, by rw [f1]; exact hx.contacts, by rw [f1]; exact hx.joints⟩
    rw [f3, if_pos (List.mem_of_getElem? hy)]
    exact hx.index j y hy
  · rw [f3]; split <;> rfl
  · have hrep := report_spares hE (b := b) e
    obtain ⟨k1, k2⟩ := writeBack_phys (b := b) isl.bodies st2 v2 hnd hlen
    have hs1 : states[i]? = some (v.initState step.dt b) := by rw [hst]; simp [hi]
    have hs2 : st1[i]? = some (integratePosition step.dt ⟨(v.phys b).sweep.c, (v.phys b).sweep.a, (E.env.solveVel v1 isl step states i).1, (E.env.solveVel v1 isl step states i).2⟩) := by
      rw [hst1]
      simp only [setVelocities, List.getElem?_map, List.getElem?_mapIdx, hs1, Option.map_some]
      rfl
    have hs3 : st2[i]? = some { integratePosition step.dt ⟨(v.phys b).sweep.c, (v.phys b).sweep.a, (E.env.solveVel v1 isl step states i).1, (E.env.solveVel v1 isl step states i).2⟩ with
        c := ((E.env.solvePos v1 isl step st1).1 i).1, a := ((E.env.solvePos v1 isl step st1).1 i).2 } := by
      rw [hst2]
      simp only [setPositions, List.getElem?_mapIdx, hs2, Option.map_some]
    have hc := hrep.core
    rw [positionsOf_at hs2, core_eq hc, k2 i _ hi hs3]
    exact ⟨rfl, rfl, rfl⟩

/-- What solving an island makes of the velocities of its bodies. -/
theorem islandSolve_velocity (hE : LeavesBodies E.env) {v v' : World F} {cap : Nat} {isl : Island} {step : TimeStep F} (hx : Fitted v isl) (hnd : isl.bodies.Nodup)
    (e : v.islandSolve E.env cap isl step = some v') : ∃ v1 : World F, v1.g = v.g ∧ Fitted v1 isl ∧ (∀ b, (v1.phys b).invMass = (v.phys b).invMass) ∧
      ∃ st : List (BState F), st.length = isl.bodies.length ∧
      ∀ i b, isl.bodies[i]? = some b → v.typeOf b ≠ .static → (v'.phys b).awake = false ∨
        ((v'.phys b).v = (clampVelocity step.dt (E.env.solveVel v1 isl step (isl.bodies.map (v.initState step.dt)) i).1
        (E.env.solveVel v1 isl step (isl.bodies.map (v.initState step.dt)) i).2).1 ∧ (v'.phys b).sweep.c = ((E.env.solvePos v1 isl step st).1 i).1 ∧
        ((World.positionsOf st).at' i).c = (v.phys b).sweep.c + step.dt * (v'.phys b).v) := by
  obtain ⟨u, r, e1, rfl⟩ := islandSolve_inv e
  obtain ⟨v1, a1, a2, a3, st, a5, a4⟩ := islandMove_velocity hE hx hnd e1
  refine ⟨v1, a1, a2, a3, st, a5, fun i b hi hn => ?_⟩
  have hb := List.mem_of_getElem? hi
  have ht : u.typeOf b = v.typeOf b := (islandMove_mild e1).toWFrame.typeOf b
  split
  · obtain ⟨k1, k2, k3⟩ := sleepIsland_spec (w := u) (h := step.dt) (l := isl.bodies) (solved := r) hnd
    by_cases hall : (∀ b ∈ isl.bodies, u.typeOf b ≠ .static → restless (u.phys b) = false ∧ timeToSleep ≤ (u.phys b).sleepTime + step.dt) ∧ r = true
    · left
      rw [k2 hall b hb]
      unfold Phys.setAwake
      rw [if_neg (by rw [ht]; exact hn)]
      rfl
    · right
      obtain ⟨x1, x2, x3⟩ := a4 i b hi
      rw [k3 hall b hb, x3, ← x1, ← x2]
      unfold timed
      split <;> exact ⟨rfl, rfl, rfl⟩
  · exact .inr (a4 i b hi)

theorem clamp_below (hr : RootBelow F) {h : F} {v : Vec2 F} {w : F} (hb : BelowLimit h (clampVelocity h v w).1) : (clampVelocity h v w).1 = v := by
  unfold clampVelocity at hb ⊢
  dsimp only at hb ⊢
  split
  · rename_i hc
    rw [if_pos hc] at hb
    exfalso
    unfold BelowLimit at hb
    have hmax : (0 : F) < maxTranslation := by unfold maxTranslation; norm_num
    have hpos : 0 < dot (h * v) (h * v) := lt_trans (mul_pos hmax hmax) hc
    obtain ⟨hl0, hl⟩ : (h * v).length ≠ 0 ∧ (h * v).length * (h * v).length ≤ dot (h * v) (h * v) := hr _ hpos
    have : dot (h * ((maxTranslation / (h * v).length) * v)) (h * ((maxTranslation / (h * v).length) * v)) ≥ maxTranslation * maxTranslation := by
      have e1 : dot (h * ((maxTranslation / (h * v).length) * v)) (h * ((maxTranslation / (h * v).length) * v)) =
          (maxTranslation / (h * v).length) * (maxTranslation / (h * v).length) * dot (h * v) (h * v) := by
        simp only [dot, Vec2.smul_x, Vec2.smul_y]; ring
      rw [e1]
      have hll : 0 < (h * v).length * (h * v).length := mul_self_pos.mpr hl0
      rw [div_mul_div_comm, ge_iff_le, div_mul_eq_mul_div, le_div_iff₀ hll]
      exact mul_le_mul_of_nonneg_left hl (mul_pos hmax hmax).le
    exact absurd hb (not_lt.mpr this)
  · rfl

theorem initState_free {v : World F} {h : F} {b : Nat} (ht : v.typeOf b = .dynamic) : (v.initState h b).v = freeV h v.gravity (v.phys b) := by
  unfold initState integrateVelocity
  rw [ht, if_pos rfl]
  dsimp only
  unfold freeV
  simp only [Vec2.ext_iff, Vec2.smul_x, Vec2.smul_y, Vec2.add_x, Vec2.add_y]
  constructor <;> ring

theorem freeV_core {h : F} {G : Vec2 F} {p q : Phys F} (e : q.core = p.core) : freeV h G q = freeV h G p := by
  rw [core_eq e]; rfl

theorem sum_on {S T : Finset Nat} {m x y : Nat → F} (h1 : ∀ b ∈ S, b ∉ T → x b = y b)
    (h2 : ∑ b ∈ T, (if b ∈ S then m b else 0) * x b = ∑ b ∈ T, (if b ∈ S then m b else 0) * y b) : ∑ b ∈ S, m b * x b = ∑ b ∈ S, m b * y b := by
  have hz : ∀ z : Nat → F, ∑ b ∈ T, (if b ∈ S then m b else 0) * z b = ∑ b ∈ S, if b ∈ T then m b * z b else 0 := by
    intro z
    simp only [ite_mul, zero_mul]
    rw [← Finset.sum_filter, ← Finset.sum_filter, Finset.filter_mem_eq_inter, Finset.filter_mem_eq_inter, Finset.inter_comm]
  rw [hz, hz] at h2
  have hs : ∀ z : Nat → F, ∑ b ∈ S, m b * z b = (∑ b ∈ S, if b ∈ T then m b * z b else 0) + ∑ b ∈ S, if b ∈ T then 0 else m b * z b := by
    intro z
    rw [← Finset.sum_add_distrib]
    refine Finset.sum_congr rfl fun b _ => ?_
    split <;> simp
  rw [hs x, hs y, h2]
  congr 1
  refine Finset.sum_congr rfl fun b hb => ?_
  split
  · rfl
  · rename_i hn; rw [h1 b hb hn]

/-- What is asked of the set of bodies when the islands are solved. -/
structure Alone (E : Engine F) (w1 : World F) (S : Finset Nat) : Prop where
  mem : ∀ b ∈ S, b ∈ w1.g.bodyList
  type : ∀ b ∈ S, (w1.g.bodies b).type = .dynamic
  enabled : ∀ b ∈ S, (w1.g.bodies b).enabled = true
  mass : ∀ b ∈ S, (w1.phys b).mass * (w1.phys b).invMass = 1
  contacts : ∀ c, Transmits w1 c → ∀ x y, (w1.g.fixtures (w1.g.contacts c).fA).body = some x → (w1.g.fixtures (w1.g.contacts c).fB).body = some y → (x ∈ S ↔ y ∈ S)
  joints : ∀ j ∈ w1.g.jointList, ((w1.g.joints j).a ∈ S ↔ (w1.g.joints j).b ∈ S)
  plain : ∀ j ∈ w1.g.jointList, (w1.g.joints j).a ∈ S → ∀ v : World F, v.g.joints j = w1.g.joints j →
    (E.joint v j).plain = true ∧ (E.joint v j).bodyA = (w1.g.joints j).a ∧ (E.joint v j).bodyB = (w1.g.joints j).b

/-- The velocity a body has when its island has been solved, and what it is to be without contacts and joints before. -/
def velNow (dt : F) (w1 w : World F) (b : Nat) : Vec2 F := if (w.phys b).island then (w.phys b).v else freeV dt w1.gravity (w1.phys b)

/-- A body fell asleep or was slowed down. -/
def Lost (dt : F) (S : Finset Nat) (w : World F) : Prop := ∃ b ∈ S, (w.phys b).island = true ∧ ((w.phys b).awake = false ∨ ¬ BelowLimit dt (w.phys b).v)

/-- The way a body has been moved in this step by its velocity. -/
def gone (w : World F) (b : Nat) : Vec2 F := if (w.phys b).island then (w.phys b).v else ⟨0, 0⟩

/-- A body fell asleep. -/
def Slept (S : Finset Nat) (w : World F) : Prop := ∃ b ∈ S, (w.phys b).island = true ∧ (w.phys b).awake = false

/-- What holds between two seeds. -/
structure MI (dt : F) (S : Finset Nat) (w1 w : World F) : Prop where
  gravity : w.gravity = w1.gravity
  core : ∀ b ∈ S, (w.phys b).island = false → (w.phys b).core = (w1.phys b).core
  total : RootBelow F → Lost dt S w ∨ ∀ π, Coord π → ∑ b ∈ S, (w1.phys b).mass * π (velNow dt w1 w b) = ∑ b ∈ S, (w1.phys b).mass * π (freeV dt w1.gravity (w1.phys b))
  centre : Slept S w ∨ ∀ π, Coord π → ∑ b ∈ S, (w1.phys b).mass * (π (w.phys b).sweep.c - dt * π (gone w b)) = ∑ b ∈ S, (w1.phys b).mass * π (w1.phys b).sweep.c

theorem triv_solves {step : TimeStep F} {g : Graph F} {G : Vec2 F} {al : Prop} (b : Nat) :
    Solves E.env step g G al b (fun _ => True) (fun _ => True) (fun _ => True) :=
  ⟨fun _ _ => trivial, fun _ _ => trivial, fun _ _ => trivial, fun _ _ _ _ _ _ _ _ _ _ _ _ => trivial, fun _ _ _ _ => trivial, fun _ _ => trivial,
    fun _ _ _ _ => trivial, fun _ _ _ => trivial⟩

theorem MI.seed (hE : LeavesBodies E.env) (hP : PostSolveCalm E.env) (hj : Seated E) {S : Finset Nat} {step : TimeStep F} {w1 w v : World F} {isls : List Island} {seen : List Nat} {seed : Nat} {s : Search F}
    (hi : GInv w1.g) (ha : Alone E w1 S) (h : GI w1 w isls) (t : TI w1 w isls seen) (m : MI step.dt S w1 w) (s1 : w.buildIsland seed = some s)
    (a2 : SI w seed (fun _ => False) s) (a3 : s.stack = []) (e : s.w.islandSolve E.env s.w.g.bodyCount s.island step = some v) :
    MI step.dt S w1 (v.releaseStatics s.island.bodies) := by
  set w2 := v.releaseStatics s.island.bodies with hw2
  have hflag : ∀ b, (s.w.phys b).island = true ↔ (w.phys b).island = true ∨ b ∈ s.island.bodies := by
    intro b; have := a2.flag b; rw [a3, List.append_nil] at this; exact this
  have hnd : s.island.bodies.Nodup := by have := a2.nodup; rw [a3, List.append_nil] at this; exact this
  have hsg : s.w.g = w1.g := a2.kept.g.trans h.g
  have hg : v.g = w1.g := by rw [(islandSolve_mild e).g, hsg]
  have hc := islandSolve_calm0 e
  obtain ⟨r1, r2, r3, r4⟩ := releaseStatics_spec s.island.bodies v
  have hfl : ∀ b ∈ S, ((w2.phys b).island = true ↔ ((w.phys b).island = true ∨ b ∈ s.island.bodies)) := by
    intro b hb
    rw [hw2, r4, hc.island, hflag, hg, ha.type b hb]
    simp
  have k2 : Keeps s.island.bodies s.w w2 := (islandSolve_keeps hP e).trans (releaseStatics_keeps v s.island.bodies)
  have fr0 : WFrame w s.w := by
    have := s1
    unfold buildIsland at this
    exact (setPhys_mild (w := w) (b := seed) (p := { w.phys seed with island := true }) (by intro _; rfl)).toWFrame.trans (search_mild this).toWFrame
  have fr : WFrame w w2 := (fr0.trans (islandSolve_mild e).toWFrame).trans (releaseStatics_mild v s.island.bodies).toWFrame
  have hfit := CI.fitted hi h t.toCI a2 a3
  have sp : ∀ b, b ∉ s.island.bodies → Spares b w w2 := fun b hb =>
    ((buildIsland_spares s1).trans ((islandSolve_track (b := b) (al := True) (G := s.w.gravity) (triv_solves b) hE rfl rfl (fun _ => trivial) hfit hnd
      (fun c hc => by rw [a2.kept.g]; exact (a2.cfresh c hc).2.1.mem) (fun j hj => by
        obtain ⟨-, x, -, -, y, tt⟩ := a2.jfresh j hj
        rw [a2.kept.g]; exact tt.mem) (fun y hy => by rw [a2.kept.g]; exact (a2.fresh y (List.mem_append.mpr (.inl hy))).2.2.1) e).1 hb)).trans (releaseStatics_spares v s.island.bodies)
  have hout : ∀ b ∈ S, b ∉ s.island.bodies → (w2.phys b).island = (w.phys b).island ∧ (w2.phys b).awake = (w.phys b).awake ∧ (w2.phys b).core = (w.phys b).core := by
    intro b hb hn
    refine ⟨?_, ?_, (sp b hn).core⟩
    · have := hfl b hb
      rw [or_iff_left hn] at this
      exact Bool.eq_iff_iff.mpr this
    · rw [k2.awake b hn, a2.awake b hn]
  have hfresh : ∀ b ∈ s.island.bodies, (w.phys b).island = false := fun b hb => (a2.fresh b (List.mem_append.mpr (.inl hb))).1
  obtain ⟨v1, b1, b2, b3, st, b5, b4⟩ := islandSolve_velocity hE hfit hnd e
  have hcore : ∀ b ∈ S, b ∈ s.island.bodies → (s.w.phys b).core = (w1.phys b).core := fun b hb hm => by
    rw [(buildIsland_spares s1).core]
    exact m.core b hb (hfresh b hm)
  have hinv : ∀ b ∈ S, b ∈ s.island.bodies → (w1.phys b).mass * (v1.phys b).invMass = 1 := fun b hb hm => by
    rw [b3, core_eq (hcore b hb hm)]
    exact ha.mass b hb
  set W : Nat → F := fun b => if b ∈ S then (w1.phys b).mass else 0 with hW
  have hWin : ∀ b, b ∈ S → W b = (w1.phys b).mass := fun b hb => by rw [hW]; exact if_pos hb
  have hWout : ∀ b, b ∉ S → W b = 0 := fun b hb => by rw [hW]; exact if_neg hb
  have hv1g : v1.g = w1.g := b1.trans hsg
  have bal : Balanced E v1 s.island W := by
    refine ⟨fun c hcm x y hx hy => ?_, fun j hjm => ?_⟩
    · obtain ⟨xA, hxA, yB, hyB, -, ex, ey⟩ := b2.contacts c hcm
      rw [hx] at ex; rw [hy] at ey
      cases ex; cases ey
      rw [hv1g] at hx hy
      have hiff := ha.contacts c (t.kept.symm.transmits (a2.cfresh c hcm).2.1) x y hx hy
      by_cases hxS : x ∈ S
      · rw [hWin x hxS, hWin y (hiff.mp hxS), hinv x hxS hxA, hinv y (hiff.mp hxS) hyB]
      · rw [hWout x hxS, hWout y (fun hy => hxS (hiff.mpr hy)), zero_mul, zero_mul]
    · have hjl : j ∈ w1.g.jointList := by
        obtain ⟨-, x, -, -, y, tt⟩ := a2.jfresh j hjm
        rw [← h.g]; exact tt.mem
      obtain ⟨j1, j2⟩ := b2.joints j hjm
      rw [hv1g] at j1 j2
      have hiff := ha.joints j hjl
      by_cases hA : (w1.g.joints j).a ∈ S
      · obtain ⟨p1, p2, p3⟩ := ha.plain j hjl hA v1 (by rw [hv1g])
        refine .inl ⟨p1, ?_, ?_⟩
        · rw [p2, p3]; exact (hi.joint.ends j hjl).1
        · rw [p2, p3, hWin _ hA, hWin _ (hiff.mp hA), hinv _ hA j1, hinv _ (hiff.mp hA) j2]
      · refine .inr fun b hb => hWout b ?_
        rcases hj v1 j b hb with h | h <;> rw [h, hv1g]
        · exact hA
        · exact fun h => hA (hiff.mpr h)
  have hphys : ∀ b, (w2.phys b).awake = (v.phys b).awake ∧ (w2.phys b).v = (v.phys b).v ∧ (w2.phys b).sweep = (v.phys b).sweep := fun b => by
    have := (releaseStatics_spares (b := b) v s.island.bodies).core
    refine ⟨(releaseStatics_keeps (bs := []) v s.island.bodies).awake b (fun h => by cases h), ?_⟩
    rw [core_eq this]
    exact ⟨rfl, rfl⟩
  have hdyn : ∀ b ∈ S, s.w.typeOf b ≠ .static := fun b hb => by
    have ht : (w1.g.bodies b).type = .dynamic := ha.type b hb
    unfold World.typeOf; rw [hsg, ht]; decide
  refine ⟨fr.gravity.trans m.gravity, fun b hb hf => ?_, ?_, ?_⟩
  · have hn : ¬ ((w.phys b).island = true ∨ b ∈ s.island.bodies) := by rw [← hfl b hb, hf]; simp
    rw [not_or] at hn
    rw [(hout b hb hn.2).2.2]
    exact m.core b hb (by simpa using hn.1)
  · intro hr
    by_cases hl : Lost step.dt S w2
    · exact .inl hl
    right
    have hnl : ¬ Lost step.dt S w := by
      rintro ⟨b, hb, hf, hx⟩
      have hn : b ∉ s.island.bodies := fun hm => by rw [hfresh b hm] at hf; cases hf
      obtain ⟨o1, o2, o3⟩ := hout b hb hn
      refine hl ⟨b, hb, o1.trans hf, hx.imp (fun h => o2.trans h) (fun h => ?_)⟩
      rw [core_eq o3]; exact h
    intro π hπ
    rw [← ((m.total hr).resolve_left hnl) π hπ]
    refine sum_on (T := s.island.bodies.toFinset) (fun b hb hn => ?_) ?_
    · have hn' : b ∉ s.island.bodies := fun hm => hn (List.mem_toFinset.mpr hm)
      obtain ⟨o1, -, o3⟩ := hout b hb hn'
      unfold velNow
      rw [o1]
      split
      · rw [core_eq o3]
      · rfl
    have key := env_balance (step := step) hj b2 bal (states := s.island.bodies.map (s.w.initState step.dt)) hπ
    rw [List.length_map] at key
    rw [sum_places hnd (g := fun b => W b * π (velNow step.dt w1 w2 b)) (fun i b hib => ?_),
      sum_places hnd (g := fun b => W b * π (velNow step.dt w1 w b)) (fun i b hib => ?_)] at key
    · exact key
    · have hm := List.mem_of_getElem? hib
      rw [List.getD_eq_getElem?_getD, hib]
      show W b * _ = W b * _
      by_cases hbS : b ∈ S
      · unfold velNow
        rw [hfresh b hm]
        have ht : s.w.typeOf b = .dynamic := by unfold World.typeOf; rw [hsg]; exact ha.type b hbS
        have : ((World.velocitiesOf (s.island.bodies.map (s.w.initState step.dt))).at' i).v = freeV step.dt w1.gravity (w1.phys b) := by
          unfold World.velocitiesOf
          simp only [List.getElem?_map, hib, Option.map_some]
          rw [initState_free ht, fr0.gravity, m.gravity, freeV_core (hcore b hbS hm)]
        rw [this]
        rfl
      · rw [hWout b hbS, zero_mul, zero_mul]
    · have hm := List.mem_of_getElem? hib
      rw [List.getD_eq_getElem?_getD, hib]
      show W b * _ = W b * _
      by_cases hbS : b ∈ S
      · have ht : (w1.g.bodies b).type = .dynamic := ha.type b hbS
        have hf2 : (w2.phys b).island = true := (hfl b hbS).mpr (.inr hm)
        have hnn : ¬ ((w2.phys b).awake = false ∨ ¬ BelowLimit step.dt (w2.phys b).v) := fun hx => hl ⟨b, hbS, hf2, hx⟩
        rw [not_or, not_not] at hnn
        have hx := ((b4 i b hib (hdyn b hbS)).resolve_left (by rw [← (hphys b).1]; exact hnn.1)).1
        have hbl := hnn.2
        rw [(hphys b).2.1, hx] at hbl
        unfold velNow
        rw [if_pos hf2, (hphys b).2.1, hx, clamp_below hr hbl]
      · rw [hWout b hbS, zero_mul, zero_mul]
  · by_cases hl : Slept S w2
    · exact .inl hl
    right
    have hnl : ¬ Slept S w := by
      rintro ⟨b, hb, hf, hx⟩
      have hn : b ∉ s.island.bodies := fun hm => by rw [hfresh b hm] at hf; cases hf
      obtain ⟨o1, o2, o3⟩ := hout b hb hn
      exact hl ⟨b, hb, o1.trans hf, o2.trans hx⟩
    intro π hπ
    have lin : ∀ (x y : Vec2 F) (k : F), π (x + k * y) = π x + k * π y := by intro x y k; cases hπ <;> rfl
    rw [← (m.centre.resolve_left hnl) π hπ]
    refine sum_on (T := s.island.bodies.toFinset) (fun b hb hn => ?_) ?_
    · have hn' : b ∉ s.island.bodies := fun hm => hn (List.mem_toFinset.mpr hm)
      obtain ⟨o1, -, o3⟩ := hout b hb hn'
      unfold gone
      rw [o1, core_eq o3]
    have key := env_centre (step := step) hj b2 bal (states := st) hπ
    rw [b5] at key
    rw [sum_places hnd (g := fun b => W b * π (w2.phys b).sweep.c) (fun i b hib => ?_),
      sum_places hnd (g := fun b => W b * (π (w.phys b).sweep.c + step.dt * π (w2.phys b).v)) (fun i b hib => ?_)] at key
    · have e1 : ∑ b ∈ s.island.bodies.toFinset, W b * (π (w2.phys b).sweep.c - step.dt * π (gone w2 b)) =
          ∑ b ∈ s.island.bodies.toFinset, W b * π (w2.phys b).sweep.c - ∑ b ∈ s.island.bodies.toFinset, W b * (step.dt * π (w2.phys b).v) := by
        rw [← Finset.sum_sub_distrib]
        refine Finset.sum_congr rfl fun b hb => ?_
        by_cases hbS : b ∈ S
        · unfold gone
          rw [if_pos ((hfl b hbS).mpr (.inr (List.mem_toFinset.mp hb))), mul_sub]
        · rw [hWout b hbS]; ring
      have e2 : ∑ b ∈ s.island.bodies.toFinset, W b * (π (w.phys b).sweep.c - step.dt * π (gone w b)) =
          ∑ b ∈ s.island.bodies.toFinset, W b * (π (w.phys b).sweep.c + step.dt * π (w2.phys b).v) - ∑ b ∈ s.island.bodies.toFinset, W b * (step.dt * π (w2.phys b).v) := by
        rw [← Finset.sum_sub_distrib]
        refine Finset.sum_congr rfl fun b hb => ?_
        have hz : π (gone w b) = 0 := by
          unfold gone
          rw [hfresh b (List.mem_toFinset.mp hb)]
          cases hπ <;> rfl
        rw [hz]; ring
      show ∑ b ∈ s.island.bodies.toFinset, W b * (π (w2.phys b).sweep.c - step.dt * π (gone w2 b)) = ∑ b ∈ s.island.bodies.toFinset, W b * (π (w.phys b).sweep.c - step.dt * π (gone w b))
      rw [e1, e2, key]
    all_goals
      have hm := List.mem_of_getElem? hib
      rw [List.getD_eq_getElem?_getD, hib]
      show W b * _ = W b * _
      by_cases hbS : b ∈ S
      swap
      · rw [hWout b hbS, zero_mul, zero_mul]
      have hf2 : (w2.phys b).island = true := (hfl b hbS).mpr (.inr hm)
      have hx := (b4 i b hib (hdyn b hbS)).resolve_left (by rw [← (hphys b).1]; exact fun h => hl ⟨b, hbS, hf2, h⟩)
      first
      | (rw [(hphys b).2.2, hx.2.1]; done)
      | (rw [hx.2.2, lin, (hphys b).2.1, core_eq (buildIsland_spares (b := b) s1).core])

theorem seeds_momentum (hE : LeavesBodies E.env) (hP : PostSolveCalm E.env) (hj : Seated E) {S : Finset Nat} {step : TimeStep F} {w1 : World F} (hi : GInv w1.g) (ha : Alone E w1 S) (l : List Nat) :
    (∀ y ∈ l, y ∈ w1.g.bodyList) → ∀ {w w' : World F} {isls isls' : List Island} {seen : List Nat}, GI w1 w isls → TI w1 w isls seen → MI step.dt S w1 w →
      l.foldlM (solveSeed E.env step) (w, isls) = some (w', isls') → TI w1 w' isls' (seen ++ l) ∧ MI step.dt S w1 w' := by
  induction l with
  | nil => intro _ w w' isls isls' seen _ t m e; cases e; rw [List.append_nil]; exact ⟨t, m⟩
  | cons a l ih =>
    intro hl w w' isls isls' seen h t m e
    have hl' : ∀ b ∈ l, b ∈ w1.g.bodyList := fun b hb => hl b (by simp [hb])
    have haa : a ∈ w1.g.bodyList := hl a (by simp)
    rw [List.foldlM_cons] at e
    have happ : seen ++ a :: l = (seen ++ [a]) ++ l := by simp
    rw [happ]
    rcases solveSeed_spec (env := E.env) (step := step) (isls := isls) (by rw [h.g]; exact hi) h.ends (show a ∈ w.g.bodyList by rw [h.g]; exact haa) with ⟨p, q⟩ | ⟨p, s, s1, a2, a3, a4, a5, q⟩
    · rw [q] at e
      refine ih hl' h ⟨t.toCI, t.awake, t.reach, t.onlyC, t.onlyJ, ?_⟩ m e
      intro b hb h1 h2 h3
      rcases List.mem_append.mp hb with hb | hb
      · exact t.covered b hb h1 h2 h3
      · rw [List.mem_singleton] at hb; subst hb
        by_contra hf
        rw [Bool.not_eq_true] at hf
        have := isSeed_iff.mpr ⟨hf, by rw [t.awake b haa h3 hf]; exact h1, by rw [h.g]; exact h2, by rw [h.g]; exact h3⟩
        rw [p] at this; cases this
    · rw [q] at e
      cases e1 : s.w.islandSolve E.env s.w.g.bodyCount s.island step with
      | none => rw [e1] at e; cases e
      | some v =>
        rw [e1] at e
        exact ih hl' (h.seed a2 a3 e1) (t.seed hP hi h p haa a2 a3 a4 e1) (m.seed hE hP hj hi ha h t s1 a2 a3 e1) e

theorem solveIslands_momentum (hE : LeavesBodies E.env) (hP : PostSolveCalm E.env) (hj : Seated E) {S : Finset Nat} {step : TimeStep F} {w w' : World F} {isls : List Island} (hw : GInv w.g)
    (ha : Alone E w S) (e : w.solveIslands E.env step = some (w', isls)) :
    Kept w w' ∧ (RootBelow F → (∀ b ∈ S, (w'.phys b).awake = true ∧ BelowLimit step.dt (w'.phys b).v) →
      ∀ π, Coord π → ∑ b ∈ S, (w.phys b).mass * π (w'.phys b).v = ∑ b ∈ S, (w.phys b).mass * π (freeV step.dt w.gravity (w.phys b))) ∧
      ((∀ b ∈ S, (w'.phys b).awake = true) → ∀ π, Coord π → ∑ b ∈ S, (w.phys b).mass * π (w'.phys b).sweep.c = ∑ b ∈ S, (w.phys b).mass * (π (w.phys b).sweep.c + step.dt * π (w'.phys b).v)) := by
  have m := (clearIslandFlags_mild w).toWFrame
  unfold solveIslands at e
  have hM : MI step.dt S w w.clearIslandFlags := by
    have hf : ∀ b ∈ S, (w.clearIslandFlags.phys b).island = false := fun b hb => (clearIslandFlags_spec w).1 b (ha.mem b hb)
    refine ⟨m.gravity, fun b _ _ => (clearIslandFlags_spares w).core, fun _ => .inr fun π _ => ?_, .inr fun π hπ => ?_⟩
    · refine Finset.sum_congr rfl fun b hb => ?_
      unfold velNow
      rw [hf b hb]; rfl
    · refine Finset.sum_congr rfl fun b hb => ?_
      have hz : π (gone w.clearIslandFlags b) = 0 := by
        unfold gone
        rw [hf b hb]
        cases hπ <;> rfl
      rw [hz, core_eq (clearIslandFlags_spares (b := b) w).core, mul_zero, sub_zero]
  obtain ⟨t, mi⟩ := seeds_momentum hE hP hj hw ha _ (fun y hy => by rw [m.g] at hy; exact hy) (GI.start w) (TI.start w) hM e
  have hflag : (∀ b ∈ S, (w'.phys b).awake = true) → ∀ b ∈ S, (w'.phys b).island = true := by
    intro hS b hb
    by_contra hf
    rw [Bool.not_eq_true] at hf
    have hst : (w.g.bodies b).type ≠ .static := by rw [ha.type b hb]; decide
    have hx := t.awake b (ha.mem b hb) hst hf
    rw [hS b hb] at hx
    have := t.covered b (by rw [m.g]; simpa using ha.mem b hb) hx.symm (ha.enabled b hb) hst
    rw [hf] at this; cases this
  refine ⟨t.kept, fun hr hS π hπ => ?_, fun hS π hπ => ?_⟩
  · have hn : ¬ Lost step.dt S w' := by
      rintro ⟨b, hb, -, hx⟩
      rcases hx with hx | hx
      · rw [(hS b hb).1] at hx; cases hx
      · exact hx (hS b hb).2
    rw [← ((mi.total hr).resolve_left hn) π hπ]
    refine Finset.sum_congr rfl fun b hb => ?_
    unfold velNow
    rw [hflag (fun b hb => (hS b hb).1) b hb]; rfl
  · have hn : ¬ Slept S w' := by
      rintro ⟨b, hb, -, hx⟩
      rw [hS b hb] at hx; cases hx
    have := (mi.centre.resolve_left hn) π hπ
    have hg : ∀ b ∈ S, gone w' b = (w'.phys b).v := fun b hb => by unfold gone; rw [hflag hS b hb]; rfl
    rw [Finset.sum_congr rfl (g := fun b => (w.phys b).mass * π (w'.phys b).sweep.c - (w.phys b).mass * (step.dt * π (w'.phys b).v)) (fun b hb => by rw [hg b hb, mul_sub]),
      Finset.sum_sub_distrib, sub_eq_iff_eq_add, ← Finset.sum_add_distrib] at this
    rw [this]
    exact Finset.sum_congr rfl fun b _ => by rw [mul_add]

theorem solve_momentum (hE : LeavesBodies E.env) (hP : PostSolveCalm E.env) (hj : Seated E) {S : Finset Nat} {step : TimeStep F} {w w' : World F} (hw : WInv w)
    (ha : GInv w.g → (∀ c, Transmits w c → Transmits w' c ∧ w'.g.contacts c = w.g.contacts c ∧ w'.g.fixtures = w.g.fixtures) → Alone E w S) (e : w.solve E.env step = some w') :
    (RootBelow F → (∀ b ∈ S, (w'.phys b).awake = true ∧ BelowLimit step.dt (w'.phys b).v) →
      ∀ π, Coord π → ∑ b ∈ S, (w.phys b).mass * π (w'.phys b).v = ∑ b ∈ S, (w.phys b).mass * π (freeV step.dt w.gravity (w.phys b))) ∧
    ((∀ b ∈ S, (w'.phys b).awake = true) → ∀ π, Coord π → ∑ b ∈ S, (w.phys b).mass * π (w'.phys b).sweep.c = ∑ b ∈ S, (w.phys b).mass * (π (w.phys b).sweep.c + step.dt * π (w'.phys b).v)) := by
  have e0 := e
  unfold solve at e
  simp only [Option.bind_eq_bind, Option.bind_eq_some_iff] at e
  obtain ⟨⟨w1, isl⟩, e1, w2, e2, e3⟩ := e
  have m1 := (solveIslands_mild e1).toWFrame
  dsimp only at e2
  have b2 : WInv w2 ∧ w2.fattr = w1.fattr ∧ w2.phys = w1.phys := by
    refine foldlM_inv (fun x : World F => WInv x ∧ x.fattr = w1.fattr ∧ x.phys = w1.phys) e2 ⟨hw.frame m1.g m1.bp, rfl, rfl⟩ ?_
    intro b _ x x' hx hv
    split at hv
    · cases hv; exact hx
    split at hv
    · cases hv; exact hx
    obtain ⟨w2, k1, k2, k3⟩ := synchronizeFixtures_spec b hx.1.pinv
    rw [k1] at hv
    cases hv
    have g : Good E.env x x' := .bpf hx.1 k2 k3
    exact ⟨g.winv, (by rw [k2.eq]; exact hx.2.1), k2.phys.trans hx.2.2⟩
  obtain ⟨h2, f2, p2⟩ := b2
  obtain ⟨w3, x3, hw', -⟩ := findNewContacts_spec h2 e3
  have hph : w'.phys = w1.phys := (findNewContacts_phys e3).trans p2
  have hA : Alone E w S := ha hw.toGInv fun c hc => solve_transmits (fun x y c h => (hP x y c h).2) hw e0 hc
  rw [hph]
  exact (solveIslands_momentum hE hP hj hw.toGInv hA e1).2

theorem mass_solves {step : TimeStep F} {g : Graph F} {G : Vec2 F} {al : Prop} (b : Nat) (m : F) :
    Solves E.env step g G al b (fun v => (v.phys b).mass = m) (fun v => (v.phys b).mass = m) (fun v => (v.phys b).mass = m) := by
  have sp : ∀ {v v' : World F}, Spares b v v' → (v.phys b).mass = m → (v'.phys b).mass = m := fun h e => by rw [core_eq h.core]; exact e
  refine ⟨sp, sp, sp, ?_, ?_, fun _ h => h, ?_, fun h _ _ => h⟩
  · intro v v1 isl states states' i h _ _ _ _ _ _ _ _ hv1 _ _
    show (upd v.phys b _ b).mass = m
    rw [upd_same]
    show (v1.phys b).mass = m
    rw [hv1]; exact h
  · intro v _ h _ _
    have : ((v.setAwake b false).phys b).mass = (v.phys b).mass := by
      unfold World.setAwake
      show (upd v.phys b _ b).mass = _
      rw [upd_same]
      unfold Phys.setAwake
      split_ifs <;> rfl
    rw [this]; exact h
  · intro v v' h _ _ e
    rw [synchronizeFixtures_phys e]; exact h

/-- The momentum of a set of bodies through a whole step. -/
theorem step_momentum (hE : LeavesBodies E.env) (hP : PostSolveCalm E.env) (hj : Seated E) {S : Finset Nat} {w w' : World F} {dt : F} {vi pi : Nat} (hw : WInv w) (hc : w.stepComplete = true)
    (hcont : w.continuous = false) (hdt : 0 < dt) (hS : Movable w S) (hm : ∀ b ∈ S, (w.phys b).mass * (w.phys b).invMass = 1) (hI : Isolated E w w' S)
    (hend : ∀ b ∈ S, (w'.phys b).awake = true) (e : w.step E.env dt vi pi = some w') :
    (RootBelow F → (∀ b ∈ S, BelowLimit dt (w'.phys b).v) → momentumOf w' S (fun b => (w'.phys b).v) = momentumOf w S (fun b => freeV dt w.gravity (w.phys b))) ∧
    momentumOf w' S (fun b => (w'.phys b).sweep.c) = momentumOf w S (fun b => (w.phys b).sweep.c) + dt * momentumOf w' S (fun b => (w'.phys b).v) ∧ ∀ b ∈ S, (w'.phys b).mass = (w.phys b).mass := by
  unfold step at e
  simp only [Option.bind_eq_bind, Option.bind_eq_some_iff] at e
  obtain ⟨w1, e1, w2, e2, e3⟩ := e
  unfold stepLocked at e2
  simp only [Option.bind_eq_bind, Option.bind_eq_some_iff] at e2
  obtain ⟨w3, e4, w4, e5, w5, e6, e7⟩ := e2
  have c1 : ∀ b, Calms b w w1 := by
    intro b
    unfold stepBegin at e1
    split at e1
    · simp only [Option.bind_eq_bind, Option.bind_eq_some_iff] at e1
      obtain ⟨v, e1, e1'⟩ := e1
      cases e1'
      exact ((findNewContacts_spares hw e1).trans (.unmoved (w := v) (w' := { v with newContacts := false }) rfl rfl rfl)).calms
    · cases e1; exact (Spares.refl _).calms
  obtain ⟨v, g1, rfl, -⟩ := stepBegin_good hw e1
  have hw1 : WInv { v with newContacts := false, locked := true } := g1.winv.frame rfl rfl
  obtain ⟨g3, -⟩ := collide_good hw1 e4
  have c3 : ∀ b, Calms b w w3 := fun b => ((c1 b).trans (Spares.unmoved (w := { v with newContacts := false }) (w' := { v with newContacts := false, locked := true }) rfl rfl rfl).calms).trans (collide_calms hE hw1 e4)
  have lists : SameLists w.g w3.g := by
    have a1 := g3.body
    have a2 := g3.eq
    dsimp only at a1 a2
    exact ⟨fun y => by rw [a1, g1.body], by rw [a2, g1.eq]⟩
  have hr3 : w3.gravity = w.gravity ∧ w3.allowSleep = w.allowSleep ∧ w3.continuous = w.continuous ∧ w3.stepComplete = w.stepComplete := by
    refine ⟨g3.rest.gravity.trans g1.rest.gravity, g3.rest.allowSleep.trans g1.rest.allowSleep, g3.rest.continuous.trans g1.rest.continuous, g3.rest.stepComplete.trans g1.rest.stepComplete⟩
  have hts : World.timeStep { { v with newContacts := false } with locked := true } dt vi pi = w.timeStep dt vi pi := by
    unfold World.timeStep
    dsimp only
    rw [g1.rest.invDt0, show v.warmStarting = w.warmStarting by rw [g1.rest.eq]]
  rw [hts] at e5 e6 e7
  have hd : (w.timeStep dt vi pi).dt = dt := rfl
  rw [hd] at e5 e6 e7
  rw [if_pos ⟨hr3.2.2.2.trans hc, hdt⟩] at e5
  have g4 := solve_good g3.winv e5
  rw [if_neg (fun h => by
    have := h.1
    rw [g4.rest.continuous, hr3.2.2.1, hcont] at this; cases this)] at e6
  cases e6
  have hb4 : w4.g.bodyList = w.g.bodyList := by rw [g4.bodyList, lists.eq]
  have fin : (∀ b ∈ S, (w'.phys b).v = (w4.phys b).v ∧ (w'.phys b).awake = (w4.phys b).awake ∧ (w'.phys b).mass = (w4.phys b).mass ∧ (w'.phys b).sweep = (w4.phys b).sweep) ∧ w'.g = w4.g ∧ w'.cst = w4.cst ∧ w'.fattr = w4.fattr := by
    cases e3
    cases e7
    generalize hx : (if dt > 0 then { w4 with invDt0 := (w.timeStep dt vi pi).invDt } else w4) = x
    have hx' : x.phys = w4.phys ∧ x.g = w4.g ∧ x.bp = w4.bp ∧ x.cst = w4.cst ∧ x.fattr = w4.fattr := by rw [← hx]; split <;> exact ⟨rfl, rfl, rfl, rfl, rfl⟩
    obtain ⟨x1, x2, x3, x4, x5⟩ := hx'
    split
    · have hnd : x.g.bodyList.Nodup := by rw [x2]; exact g4.winv.body.nodup
      have fc : x.clearForcesAll.cst = x.cst ∧ x.clearForcesAll.fattr = x.fattr ∧ x.clearForcesAll.g = x.g := by
        unfold clearForcesAll
        refine foldl_inv (fun u : World F => u.cst = x.cst ∧ u.fattr = x.fattr ∧ u.g = x.g) ⟨rfl, rfl, rfl⟩ ?_
        intro y _ u h
        exact h
      refine ⟨fun b hb => ?_, fc.2.2.trans x2, fc.1.trans x4, fc.2.1.trans x5⟩
      obtain ⟨t1, t2, t3⟩ := clearForcesAll_phys (w := x) (b := b) hnd (by rw [x2, hb4]; exact hS.mem b hb)
      show (x.clearForcesAll.phys b).v = _ ∧ (x.clearForcesAll.phys b).awake = _ ∧ (x.clearForcesAll.phys b).mass = _ ∧ (x.clearForcesAll.phys b).sweep = _
      rw [t1, x1]
      exact ⟨rfl, rfl, rfl, rfl⟩
    · exact ⟨fun b hb => by show (x.phys b).v = _ ∧ (x.phys b).awake = _ ∧ (x.phys b).mass = _ ∧ (x.phys b).sweep = _; rw [x1]; exact ⟨rfl, rfl, rfl, rfl⟩, x2, x4, x5⟩
  obtain ⟨fin, fg, fcst, ffa⟩ := fin
  have hcore : ∀ b, (w3.phys b).core = (w.phys b).core := fun b => (c3 b).core
  have hA : (∀ c, Transmits w3 c → Transmits w4 c ∧ w4.g.contacts c = w3.g.contacts c ∧ w4.g.fixtures = w3.g.fixtures) → Alone E w3 S := by
    intro ht
    refine ⟨fun b hb => by rw [lists.eq]; exact hS.mem b hb, fun b hb => ?_, fun b hb => ?_, fun b hb => ?_, fun c hc x y hx hy => ?_, fun j hjl => ?_, fun j hjl => ?_⟩
    · rw [lists.body]; exact hS.type b hb
    · rw [lists.body]; exact hS.enabled b hb
    · rw [core_eq (hcore b)]; exact hm b hb
    · obtain ⟨t1, t2, t3⟩ := ht c hc
      refine hI.contacts c ⟨by rw [fg]; exact t1.mem, by rw [fcst]; exact t1.enabled, by rw [fcst]; exact t1.touching, by rw [fg, ffa]; exact t1.solidA, by rw [fg, ffa]; exact t1.solidB⟩ x y ?_ ?_
      · rw [fg, t2, t3]; exact hx
      · rw [fg, t2, t3]; exact hy
    · have hjo : w3.g.joints = w.g.joints ∧ w3.g.jointList = w.g.jointList := by rw [lists.eq]; exact ⟨rfl, rfl⟩
      rw [hjo.1]; rw [hjo.2] at hjl; exact hI.joints j hjl
    · have hjo : w3.g.joints = w.g.joints ∧ w3.g.jointList = w.g.jointList := by rw [lists.eq]; exact ⟨rfl, rfl⟩
      rw [hjo.1]; rw [hjo.2] at hjl; exact hI.plain j hjl
  have hmass : ∀ b ∈ S, (w'.phys b).mass = (w3.phys b).mass := fun b hb => by
    rw [(fin b hb).2.2.1, solve_track (mass_solves b (w3.phys b).mass) hE (fun x y c h => (hP x y c h).2) g3.winv (by rw [lists.eq]; exact hS.mem b hb) rfl (fun _ t => t.mem) rfl id rfl e5]
  obtain ⟨key, key2⟩ := solve_momentum hE hP hj g3.winv (fun _ => hA) e5
  refine ⟨fun hr hlim => ?_, ?_, fun b hb => by rw [hmass b hb, core_eq (hcore b)]⟩
  · have key := key hr (fun b hb => by
      obtain ⟨f1, f2, -⟩ := fin b hb
      rw [← f1, ← f2]; exact ⟨hend b hb, hlim b hb⟩)
    have conv : ∀ π : Vec2 F → F, Coord π → ∑ b ∈ S, (w'.phys b).mass * π (w'.phys b).v = ∑ b ∈ S, (w.phys b).mass * π (freeV dt w.gravity (w.phys b)) := by
      intro π hπ
      have := key π hπ
      have hl : ∑ b ∈ S, (w3.phys b).mass * π (w4.phys b).v = ∑ b ∈ S, (w'.phys b).mass * π (w'.phys b).v :=
        Finset.sum_congr rfl fun b hb => by rw [(fin b hb).1, hmass b hb]
      have hrr : ∑ b ∈ S, (w3.phys b).mass * π (freeV (w.timeStep dt vi pi).dt w3.gravity (w3.phys b)) = ∑ b ∈ S, (w.phys b).mass * π (freeV dt w.gravity (w.phys b)) :=
        Finset.sum_congr rfl fun b hb => by rw [hr3.1, freeV_core (hcore b), core_eq (hcore b)]; rfl
      rw [hl, hrr] at this
      exact this
    unfold momentumOf
    rw [Vec2.mk.injEq]
    exact ⟨conv _ .x, conv _ .y⟩
  · have key2 := key2 (fun b hb => by rw [← (fin b hb).2.1]; exact hend b hb)
    have conv : ∀ π : Vec2 F → F, Coord π → ∑ b ∈ S, (w'.phys b).mass * π (w'.phys b).sweep.c =
        ∑ b ∈ S, (w.phys b).mass * π (w.phys b).sweep.c + dt * ∑ b ∈ S, (w'.phys b).mass * π (w'.phys b).v := by
      intro π hπ
      have := key2 π hπ
      rw [Finset.mul_sum, ← Finset.sum_add_distrib]
      have hl : ∑ b ∈ S, (w3.phys b).mass * π (w4.phys b).sweep.c = ∑ b ∈ S, (w'.phys b).mass * π (w'.phys b).sweep.c :=
        Finset.sum_congr rfl fun b hb => by rw [(fin b hb).2.2.2, hmass b hb]
      rw [← hl, this]
      refine Finset.sum_congr rfl fun b hb => ?_
      rw [(fin b hb).1, hmass b hb, core_eq (hcore b), hd]
      ring
    unfold momentumOf
    simp only [Vec2.ext_iff, Vec2.add_x, Vec2.add_y, Vec2.smul_x, Vec2.smul_y]
    exact ⟨conv _ .x, conv _ .y⟩

end
end B2
