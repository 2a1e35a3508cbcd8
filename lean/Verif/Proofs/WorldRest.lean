import Verif.Proofs.Rest
import Verif.Spec.Rest

/-! # A body that rests on another: through a whole step -/
set_option linter.unusedSectionVars false
namespace B2
open Spec World
section
variable {F : Type} [Field F] [LinearOrder F] [IsStrictOrderedRing F] [Elem F]
variable {E : Engine F}

/-- Where an island leaves its bodies. -/
theorem islandSolve_place (hE : LeavesBodies E.env) (hS : Silent E.env) {v v' : World F} {cap : Nat} {isl : Island} {step : TimeStep F} (hx : Fitted v isl) (hnd : isl.bodies.Nodup)
    (e : v.islandSolve E.env cap isl step = some v') : ∃ v1 : World F, v1.g = v.g ∧ v1.cst = v.cst ∧ Fitted v1 isl ∧
      (∀ b, v1.phys b = if b ∈ isl.bodies then { v.phys b with sweep := { (v.phys b).sweep with c0 := (v.phys b).sweep.c, a0 := (v.phys b).sweep.a } } else v.phys b) ∧
      (∀ b, v1.initState step.dt b = v.initState step.dt b) ∧
      (∀ i b, isl.bodies[i]? = some b → v.typeOf b ≠ .static → ∀ s1, s1 = (setVelocities (isl.bodies.map (v.initState step.dt)) (E.env.solveVel v1 isl step (isl.bodies.map (v.initState step.dt)))).map (integratePosition step.dt) →
        (((v'.phys b).v = ⟨0, 0⟩ ∧ (v'.phys b).w = 0) ∨
          ((v'.phys b).v, (v'.phys b).w) = clampVelocity step.dt (E.env.solveVel v1 isl step (isl.bodies.map (v.initState step.dt)) i).1 (E.env.solveVel v1 isl step (isl.bodies.map (v.initState step.dt)) i).2) ∧
        (v'.phys b).sweep.c = ((E.env.solvePos v1 isl step s1).1 i).1 ∧ (v'.phys b).sweep.a = ((E.env.solvePos v1 isl step s1).1 i).2 ∧
        (v'.phys b).sweep.localCenter = (v.phys b).sweep.localCenter ∧ Posed (v'.phys b)) ∧
      ∀ c, isl.contacts = [c] → v'.cst c = { v.cst c with manifold := storeImpulses (v.cst c).manifold (E.env.impulses v1 isl step 0) } := by
  obtain ⟨u, r, e1, rfl⟩ := islandSolve_inv e
  have ht : ∀ b, u.typeOf b = v.typeOf b := fun b => (islandMove_mild e1).toWFrame.typeOf b
  unfold islandMove at e1
  split at e1
  · cases e1
  simp only [Option.bind_eq_bind, Option.bind_eq_some_iff] at e1
  obtain ⟨v3, e1, e'⟩ := e1
  cases e'
  set states : List (BState F) := isl.bodies.map (v.initState step.dt) with hst
  set v1 : World F := isl.bodies.foldl (fun w b => w.setPhys b { w.phys b with sweep := { (w.phys b).sweep with c0 := (w.phys b).sweep.c, a0 := (w.phys b).sweep.a } }) v with hv1
  obtain ⟨f1, f2, f3⟩ := foldl_setPhys_spec (fun w y => { w.phys y with sweep := { (w.phys y).sweep with c0 := (w.phys y).sweep.c, a0 := (w.phys y).sweep.a } })
    (fun w w' y h => by dsimp only; rw [h]) isl.bodies v hnd
  have f4 : v1.cst = v.cst := by
    rw [hv1]; exact foldl_inv (fun x : World F => x.cst = v.cst) rfl (fun _ _ _ h => h)
  have f5 : v1.gravity = v.gravity := by
    rw [hv1]; exact foldl_inv (fun x : World F => x.gravity = v.gravity) rfl (fun _ _ _ h => h)
  rw [← hv1] at f1 f2 f3
  set st1 : List (BState F) := (setVelocities states (E.env.solveVel v1 isl step states)).map (integratePosition step.dt) with hst1
  set v2 : World F := isl.contacts.zipIdx.foldl (fun w x => w.setCst x.1 { w.cst x.1 with manifold := storeImpulses (w.cst x.1).manifold (E.env.impulses v1 isl step x.2) }) v1 with hv2
  have q5 : ∀ c, isl.contacts = [c] → v2.cst c = { v.cst c with manifold := storeImpulses (v.cst c).manifold (E.env.impulses v1 isl step 0) } := by
    intro c hc
    rw [hv2, hc]
    show upd v1.cst c _ c = _
    rw [upd_same, f4]
  obtain ⟨q1, q2, q3⟩ := setCsts_same isl.contacts.zipIdx (fun _ x => x.1)
    (fun w x => { w.cst x.1 with manifold := storeImpulses (w.cst x.1).manifold (E.env.impulses v1 isl step x.2) }) v1
  rw [← hv2] at q1 q2 q3
  clear_value v1 v2
  set st2 : List (BState F) := setPositions st1 (E.env.solvePos v1 isl step st1).1 with hst2
  have hlen : isl.bodies.length = st2.length := by rw [hst2, hst1, hst]; simp [setVelocities, setPositions]
  have hcst : u.cst = v2.cst := (report_silent hS e1).trans (writeBack_cst _ _ _)
  have hw3 : ∀ i b, isl.bodies[i]? = some b → ((u.phys b).v, (u.phys b).w) = clampVelocity step.dt (E.env.solveVel v1 isl step states i).1 (E.env.solveVel v1 isl step states i).2 ∧
      (u.phys b).sweep.c = ((E.env.solvePos v1 isl step st1).1 i).1 ∧ (u.phys b).sweep.a = ((E.env.solvePos v1 isl step st1).1 i).2 ∧
      (u.phys b).sweep.localCenter = (v.phys b).sweep.localCenter ∧ Posed (u.phys b) := by
    intro i b hi
    have hrep := report_spares hE (b := b) e1
    obtain ⟨k1, k2⟩ := writeBack_phys (b := b) isl.bodies st2 v2 hnd hlen
    have hs1 : states[i]? = some (v.initState step.dt b) := by rw [hst]; simp [hi]
    have hs2 : st1[i]? = some (integratePosition step.dt ⟨(v.phys b).sweep.c, (v.phys b).sweep.a, (E.env.solveVel v1 isl step states i).1, (E.env.solveVel v1 isl step states i).2⟩) := by
      rw [hst1]
      simp only [setVelocities, List.getElem?_map, List.getElem?_mapIdx, hs1, Option.map_some]
      rfl
    have hs3 : st2[i]? = some { integratePosition step.dt ⟨(v.phys b).sweep.c, (v.phys b).sweep.a, (E.env.solveVel v1 isl step states i).1, (E.env.solveVel v1 isl step states i).2⟩ with
        c := ((E.env.solvePos v1 isl step st1).1 i).1, a := ((E.env.solvePos v1 isl step st1).1 i).2 } := by
      rw [hst2]
      simp only [setPositions, List.getElem?_mapIdx, hs2, Option.map_some]
    have hc := hrep.core
    have hl : (v2.phys b).sweep.localCenter = (v.phys b).sweep.localCenter := by
      rw [q3, f3]; split <;> rfl
    rw [core_eq hc, k2 i _ hi hs3]
    exact ⟨rfl, rfl, rfl, hl, rfl⟩
  refine ⟨v1, f1, f4, ?_, f3, fun b => ?_, fun i b hi hn s1 hs1 => ?_, fun c hc => ?_⟩
  · refine ⟨fun j y hy => ?_, by rw [f1]; exact hx.contacts, by rw [f1]; exact hx.joints⟩
    rw [f3, if_pos (List.mem_of_getElem? hy)]
    exact hx.index j y hy
  · unfold initState World.typeOf
    rw [f1, f3, f5]
    split_ifs <;> rfl
  · subst hs1
    have hb := List.mem_of_getElem? hi
    obtain ⟨p1, p2, p3, p4, p5⟩ := hw3 i b hi
    split
    · obtain ⟨k1, k2, k3⟩ := sleepIsland_spec (w := u) (h := step.dt) (l := isl.bodies) (solved := (E.env.solvePos v1 isl step st1).2) hnd
      by_cases hall : (∀ b ∈ isl.bodies, u.typeOf b ≠ .static → restless (u.phys b) = false ∧ timeToSleep ≤ (u.phys b).sleepTime + step.dt) ∧ (E.env.solvePos v1 isl step st1).2 = true
      · rw [k2 hall b hb]
        unfold timed
        rw [if_neg (by rw [ht]; exact hn)]
        unfold Phys.setAwake
        rw [if_neg (by rw [ht]; exact hn), if_neg (by decide)]
        exact ⟨.inl ⟨rfl, rfl⟩, p2, p3, p4, p5⟩
      · rw [k3 hall b hb]
        unfold timed
        rw [if_neg (by rw [ht]; exact hn)]
        exact ⟨.inr p1, p2, p3, p4, p5⟩
    · exact ⟨.inr p1, p2, p3, p4, p5⟩
  · split
    · rw [sleepIsland_cst, hcst]; exact q5 c hc
    · rw [hcst]; exact q5 c hc

/-! ### Between two seeds -/

/-- What bears body `z`, when the islands are solved. -/
structure Borne (dt : F) (w1 : World F) (c x y z o : Nat) : Prop where
  pair : (z = x ∧ o = y) ∨ (z = y ∧ o = x)
  mobile : (w1.g.bodies z).type ≠ .static
  fixed : (w1.g.bodies o).type = .static
  point : ∃ q, (w1.cst c).manifold.points = [q] ∧ q.tangentImpulse = 0
  slides : (w1.cst c).tangentSpeed = 0
  rough : 0 ≤ (w1.cst c).friction
  apart : CentresApart (w1.cst c).manifold (w1.phys x).xf (w1.phys y).xf
  turn : (drivenVel dt w1 z).w = 0
  touch : ∃ wm u, worldManifold (w1.cst c).manifold (w1.phys x).xf (w1.g.fixtures (w1.g.contacts c).fA).shape.radius (w1.phys y).xf (w1.g.fixtures (w1.g.contacts c).fB).shape.radius = some wm ∧
    dot wm.normal wm.normal = 1 ∧ -linearSlop ≤ wm.s1 ∧ cross (wm.p1 - (w1.phys z).sweep.c) wm.normal = 0 ∧ 0 ≤ u ∧ (u ≤ (w1.cst c).restitutionThreshold ∨ (w1.cst c).restitution = 0) ∧
    (drivenVel dt w1 y).v = (drivenVel dt w1 x).v + (-u) * wm.normal

/-- The body has been stopped where it was. -/
structure Halted (p q : Phys F) : Prop where
  v : q.v = ⟨0, 0⟩
  w : q.w = 0
  c : q.sweep.c = p.sweep.c
  a : q.sweep.a = p.sweep.a
  xf : q.xf = p.xf

theorem clamp_rest (h : F) : clampVelocity h ⟨0, 0⟩ 0 = (⟨0, 0⟩, 0) := by
  have h1 : ∀ m : F, ¬ (0 : F) > m * m := fun m => not_lt.mpr (mul_self_nonneg m)
  have h2 : dot (h * (⟨0, 0⟩ : Vec2 F)) (h * (⟨0, 0⟩ : Vec2 F)) = 0 := by simp [dot]
  unfold clampVelocity
  dsimp only
  rw [h2, if_neg (h1 _), mul_zero, mul_zero, if_neg (h1 _)]

/-- What holds of the body between two seeds, and of the contact that bears it. -/
def Rested (w1 : World F) (c z : Nat) (w : World F) : Prop :=
  (w.cst c).island = true → Halted (w1.phys z) (w.phys z) ∧ ∀ p ∈ (w.cst c).manifold.points, p.tangentImpulse = 0

theorem Rested.seed (hr : RootBelow F) (hE : LeavesBodies E.env) (hS : Silent E.env) (hH : HeavyStay E.env) (hb : E.block = true) {step : TimeStep F} {c x y z o : Nat} {w1 w v : World F}
    {isls : List Island} {seen : List Nat} {seed : Nat} {s : Search F} (hd : 0 ≤ step.dtRatio) (hvi : 1 ≤ step.velocityIterations)
    (hi : GInv w1.g) (hm : Meet w1 c x y) (hB : Borne step.dt w1 c x y z o) (n : Rested w1 c z w) (h : GI w1 w isls) (t : TI w1 w isls seen) (m : BI step.dt w1 c x y w) (s0 : w.isSeed seed = true) (s1 : w.buildIsland seed = some s) (hmem : seed ∈ w1.g.bodyList)
    (a2 : SI w seed (fun _ => False) s) (a3 : s.stack = []) (a4 : s.island.bodies.head? = some seed) (e : s.w.islandSolve E.env s.w.g.bodyCount s.island step = some v) :
    Rested w1 c z (v.releaseStatics s.island.bodies) := by
  have hP := silent_calm hS
  have t' := t.seed hP hi h s0 hmem a2 a3 a4 e
  set w2 := v.releaseStatics s.island.bodies with hw2
  have hflag : ∀ b, (s.w.phys b).island = true ↔ (w.phys b).island = true ∨ b ∈ s.island.bodies := by
    intro b; have := a2.flag b; rw [a3, List.append_nil] at this; exact this
  have hnd : s.island.bodies.Nodup := by have := a2.nodup; rw [a3, List.append_nil] at this; exact this
  have hsg : s.w.g = w1.g := a2.kept.g.trans h.g
  have hg : v.g = w1.g := by rw [(islandSolve_mild e).g, hsg]
  have hc := islandSolve_calm0 e
  obtain ⟨r1, r2, r3, r4⟩ := releaseStatics_spec s.island.bodies v
  have hfl : ∀ b, (w1.g.bodies b).type ≠ .static → ((w2.phys b).island = true ↔ ((w.phys b).island = true ∨ b ∈ s.island.bodies)) := by
    intro b hb
    rw [hw2, r4, hc.island, hflag, hg]
    simp [hb]
  have k2 : Keeps s.island.bodies s.w w2 := (islandSolve_keeps hP e).trans (releaseStatics_keeps v s.island.bodies)
  have fr0 : WFrame w s.w := by
    have := s1
    unfold buildIsland at this
    exact (setPhys_mild (w := w) (b := seed) (p := { w.phys seed with island := true }) (by intro _; rfl)).toWFrame.trans (search_mild this).toWFrame
  have fr : WFrame w w2 := (fr0.trans (islandSolve_mild e).toWFrame).trans (releaseStatics_mild v s.island.bodies).toWFrame
  have hfit := CI.fitted hi h t.toCI a2 a3
  have hC : ∀ c ∈ s.island.contacts, c ∈ w1.g.contactList := fun c hc => by rw [← h.g]; exact (a2.cfresh c hc).2.1.mem
  have hJ : ∀ j ∈ s.island.joints, j ∈ w1.g.jointList := fun j hj => by
    obtain ⟨-, x, -, -, y, tt⟩ := a2.jfresh j hj
    rw [← h.g]; exact tt.mem
  have hEn : ∀ y ∈ s.island.bodies, (w1.g.bodies y).enabled = true := fun y hy => by rw [← h.g]; exact (a2.fresh y (List.mem_append.mpr (.inl hy))).2.2.1
  have sp : ∀ b, b ∉ s.island.bodies → Spares b w w2 := fun b hb =>
    ((buildIsland_spares s1).trans ((islandSolve_track (b := b) (al := True) (G := s.w.gravity) (T := (· ∈ w1.g.contactList)) (triv_solves b) hE hsg rfl (fun _ => trivial) hfit hnd hC hJ hEn e).1 hb)).trans
      (releaseStatics_spares v s.island.bodies)
  have hout : ∀ b, (w1.g.bodies b).type ≠ .static → b ∉ s.island.bodies → (w2.phys b).island = (w.phys b).island ∧ (w2.phys b).awake = (w.phys b).awake ∧ (w2.phys b).core = (w.phys b).core := by
    intro b hb hn
    refine ⟨?_, ?_, (sp b hn).core⟩
    · have := hfl b hb
      rw [or_iff_left hn] at this
      exact Bool.eq_iff_iff.mpr this
    · rw [k2.awake b hn, a2.awake b hn]
  have hfresh : ∀ b ∈ s.island.bodies, (w.phys b).island = false := fun b hb => (a2.fresh b (List.mem_append.mpr (.inl hb))).1
  have hstill : ∀ z, z = x ∨ z = y → (w1.g.bodies z).type = .static → At z (Heavy0 .static True (w1.phys z)) w2 := by
    intro z hz hs
    obtain ⟨z1, z2, -⟩ := hm.still z hz hs
    have hsol : Solves E.env step w1.g s.w.gravity True z (fun u => At z (Heavy0 .static True (w1.phys z)) u ∧ (¬ True → (u.phys z).awake = true)) (At z (Heavy1 .static step.dt (w1.phys z)))
        (At z (Heavy1 .static step.dt (w1.phys z))) (· ∈ w1.g.contactList) :=
      heavy_solves hH (by rw [z1, z2]; exact slow_zero _) rfl (by decide) (fun _ => trivial) (fun _ => ⟨z1, z2⟩) (fun h => absurd trivial h) (fun _ => .inr ⟨z1, z2⟩)
    have h0 : At z (Heavy0 .static True (w1.phys z)) s.w := (m.still z hz hs).spares (buildIsland_spares s1) (fun _ _ _ => Heavy0.core)
    by_cases hin : z ∈ s.island.bodies
    · have h1 := (islandSolve_track hsol hE hsg rfl (fun _ => trivial) hfit hnd hC hJ hEn e).2 hin ⟨h0, fun h => absurd trivial h⟩
      exact ((hsol.again (by unfold World.typeOf; rw [hg]; exact hs) h1).1).spares (releaseStatics_spares v s.island.bodies) (fun _ _ _ => Heavy0.core)
    · exact (m.still z hz hs).spares (sp z hin) (fun _ _ _ => Heavy0.core)
  have hI : s.island ∈ isls ++ [s.island] := by simp
  obtain ⟨-, -, -, -, -, -, -, b7, -⟩ := islandSolve_full hE hS hfit hnd e
  obtain ⟨v1, b1, b2, b3, b4, b5, b6, b8⟩ := islandSolve_place hE hS hfit hnd e
  have hcon := buildIsland_con (c := c) s1
  have hw2c : w2.cst = v.cst := releaseStatics_cst _ _
  by_cases hcin : c ∈ s.island.contacts
  swap
  · -- another island
    have hcst : w2.cst c = w.cst c := by
      rw [hw2c, b7 c hcin]
      have hf := a2.cflag c
      rw [or_iff_left hcin] at hf
      have := Bool.eq_iff_iff.mpr hf
      rw [hcon, this]
    have hnot : ∀ z, z = x ∨ z = y → (w1.g.bodies z).type ≠ .static → z ∉ s.island.bodies := by
      intro z hz hs hin
      rcases hz with rfl | rfl
      · exact hcin (t'.closedC _ hI z hin hs c y hm.tr (.inl ⟨hm.bodyA, hm.bodyB⟩)).1
      · exact hcin (t'.closedC _ hI z hin hs c x hm.tr (.inr ⟨hm.bodyA, hm.bodyB⟩)).1
    intro hf
    rw [hcst] at hf ⊢
    obtain ⟨n1, n2⟩ := n hf
    have hz : z = x ∨ z = y := hB.pair.imp (·.1) (·.1)
    obtain ⟨-, -, o3⟩ := hout z hB.mobile (hnot z hz hB.mobile)
    have ec := core_eq o3
    exact ⟨⟨by rw [ec]; exact n1.v, by rw [ec]; exact n1.w, by rw [ec]; exact n1.c, by rw [ec]; exact n1.a, by rw [ec]; exact n1.xf⟩, n2⟩
  -- the island of the two bodies
  obtain ⟨xA, hxA, yB, hyB, hne, ex, ey⟩ := hfit.contacts c hcin
  rw [hsg] at ex ey
  rw [hm.bodyA] at ex; rw [hm.bodyB] at ey
  cases ex; cases ey
  have hin : ∀ z, z = x ∨ z = y → z ∈ s.island.bodies := by rintro z (rfl | rfl) <;> assumption
  obtain ⟨f1, f2, ⟨bz, hbz, hbt, by', hby⟩⟩ := a2.cfresh c hcin
  have hN : ∀ b ∈ s.island.bodies, (w1.g.bodies b).type ≠ .static → b = x ∨ b = y := by
    obtain ⟨sd, hsd, -, -, hst, hre⟩ := t'.reach _ hI
    have hbz' : bz = x ∨ bz = y := by
      have : Connects w1 c bz by' := t.kept.symm.connects hby
      rcases this with ⟨k, -⟩ | ⟨-, k⟩
      · rw [hm.bodyA] at k; cases k; exact .inl rfl
      · rw [hm.bodyB] at k; cases k; exact .inr rfl
    rw [h.g] at hbt
    intro b hb hs
    exact (reach_pair hm (hre b hb) hst hs).mpr ((reach_pair hm (hre bz hbz) hst hbt).mp hbz')
  have hcs : s.island.contacts = [c] := by
    have hall : ∀ c' ∈ s.island.contacts, c' = c := by
      intro c' hc'
      obtain ⟨-, g2, ⟨b, hb, hbs, q, hq⟩⟩ := a2.cfresh c' hc'
      rw [h.g] at hbs
      refine hm.only b (hN b hb hbs) hbs c' (t.kept.symm.transmits g2) ?_
      rcases t.kept.symm.connects hq with ⟨k, -⟩ | ⟨-, k⟩
      · exact .inl k
      · exact .inr k
    have hnd := a2.cnodup
    generalize s.island.contacts = l at hall hnd hcin
    match l with
    | [] => cases hcin
    | [a] => rw [hall a (by simp)]
    | a :: b :: l =>
      have h1 := hall a (by simp)
      have h2 := hall b (by simp)
      rw [h1, h2] at hnd
      simp at hnd
  have hjs : s.island.joints = [] := by
    rw [List.eq_nil_iff_forall_not_mem]
    intro j hj
    obtain ⟨-, b, hb, hbs, q, hq⟩ := a2.jfresh j hj
    rw [h.g] at hbs
    have hno := hm.joints b (hN b hb hbs) hbs j (hJ j hj)
    rcases (t.kept.symm.ties hq).ends with ⟨k, -⟩ | ⟨-, k⟩
    · exact hno.1 k
    · exact hno.2 k
  have hmf := m.fresh f1
  have hv1g : v1.g = w1.g := b1.trans hsg
  have hcm : (s.w.cst c).manifold = (w1.cst c).manifold := by rw [hcon]; exact hmf
  -- the bodies as the solver reads them
  have sready : ∀ z, z = x ∨ z = y → (s.w.phys z).sweep.c = (w1.phys z).sweep.c ∧ (s.w.phys z).sweep.a = (w1.phys z).sweep.a ∧ (s.w.phys z).sweep.localCenter = (w1.phys z).sweep.localCenter ∧
      (s.w.phys z).invMass = (w1.phys z).invMass ∧ (s.w.phys z).invI = (w1.phys z).invI ∧ (⟨(s.w.initState step.dt z).v, (s.w.initState step.dt z).w⟩ : Vel F) = drivenVel step.dt w1 z := by
    intro z hz
    have r := m.ready hm h.g hz (fun _ => hfresh z (hin z hz))
    have ec := core_eq (buildIsland_spares (b := z) s1).core
    have hini : s.w.initState step.dt z = w.initState step.dt z := by
      unfold initState World.typeOf
      rw [a2.kept.g, fr0.gravity, ec]
      rfl
    rw [hini, ec]
    exact r
  have hplace : ∀ z, z = x ∨ z = y → s.island.bodies[(v1.phys z).islandIndex.toNat]? = some z := fun z hz => b3.place (hin z hz)
  set states : List (BState F) := s.island.bodies.map (s.w.initState step.dt) with hstates
  have hstate : ∀ z, z = x ∨ z = y → states[(v1.phys z).islandIndex.toNat]? = some (s.w.initState step.dt z) := fun z hz => by rw [hstates]; simp [hplace z hz]
  have hlen : states.length = s.island.bodies.length := by rw [hstates]; simp
  have v1z : ∀ z, z = x ∨ z = y → (v1.phys z).invMass = (w1.phys z).invMass ∧ (v1.phys z).invI = (w1.phys z).invI ∧ (v1.phys z).sweep.localCenter = (w1.phys z).sweep.localCenter := by
    intro z hz
    obtain ⟨-, -, q3, q4, q5, -⟩ := sready z hz
    rw [b4, if_pos (hin z hz)]
    exact ⟨q4, q5, q3⟩
  obtain ⟨ci, hci, hcim, hcir, hcit, hcif, hcis, hcirA, hcirB, hciA, hciB, hcimA, hcimB, hciiA, hciiB, hclA, hclB⟩ : ∃ ci, v1.contactIn c = some ci ∧ ci.manifold = (w1.cst c).manifold ∧ ci.restitution = (w1.cst c).restitution ∧
      ci.threshold = (w1.cst c).restitutionThreshold ∧ ci.friction = (w1.cst c).friction ∧ ci.tangentSpeed = (w1.cst c).tangentSpeed ∧ ci.radiusA = (w1.g.fixtures (w1.g.contacts c).fA).shape.radius ∧ ci.radiusB = (w1.g.fixtures (w1.g.contacts c).fB).shape.radius ∧
      ci.indexA = (v1.phys x).islandIndex.toNat ∧ ci.indexB = (v1.phys y).islandIndex.toNat ∧ ci.invMassA = (w1.phys x).invMass ∧ ci.invMassB = (w1.phys y).invMass ∧
      ci.invIA = (w1.phys x).invI ∧ ci.invIB = (w1.phys y).invI ∧ ci.localCenterA = (w1.phys x).sweep.localCenter ∧ ci.localCenterB = (w1.phys y).sweep.localCenter := by
    obtain ⟨px1, px2, px3⟩ := v1z x (.inl rfl)
    obtain ⟨py1, py2, py3⟩ := v1z y (.inr rfl)
    have hcst1 : v1.cst c = { w1.cst c with island := (s.w.cst c).island } := by
      rw [b2, hcon, m.con.1, hmf]
    unfold World.contactIn World.bodyOf
    dsimp only
    rw [hv1g, hm.bodyA, hm.bodyB]
    refine ⟨_, rfl, ?_⟩
    dsimp only
    rw [hcst1]
    exact ⟨rfl, rfl, rfl, rfl, rfl, rfl, rfl, rfl, rfl, px1, py1, px2, py2, px3, py3⟩
  have hok : ci.Ok states.length := by
    refine ⟨by rw [hcim]; exact hm.sound.points, by rw [hcim]; exact hm.sound.circles, ?_, ?_, ?_, ?_, ?_, ?_, ?_, ?_, by rw [hcim]; exact hm.sound.normal⟩
    · rw [hciA, hlen]; exact b3.place_lt hxA
    · rw [hciB, hlen]; exact b3.place_lt hyB
    · intro he
      rw [hciA, hciB] at he
      exact hne (b3.same (hplace y (.inr rfl)) hxA he)
    · rw [hcimA]; exact (hm.mass x (.inl rfl)).1
    · rw [hcimB]; exact (hm.mass y (.inr rfl)).1
    · rw [hcimA, hcimB]; exact hm.some
    · rw [hciiA]; exact (hm.mass x (.inl rfl)).2
    · rw [hciiB]; exact (hm.mass y (.inr rfl)).2
  have hpos : ∀ z, z = x ∨ z = y → (World.positionsOf states).at' (v1.phys z).islandIndex.toNat = ⟨(w1.phys z).sweep.c, (w1.phys z).sweep.a⟩ := by
    intro z hz
    obtain ⟨q1, q2, -⟩ := sready z hz
    unfold World.positionsOf
    dsimp only
    rw [hstate z hz]
    dsimp only
    rw [← q1, ← q2]
    rfl
  have hvl : ∀ z, z = x ∨ z = y → (World.velocitiesOf states).at' (v1.phys z).islandIndex.toNat = drivenVel step.dt w1 z := by
    intro z hz
    obtain ⟨-, -, -, -, -, q6⟩ := sready z hz
    unfold World.velocitiesOf
    dsimp only
    rw [hstate z hz]
    exact q6
  have hxf : ∀ z, z = x ∨ z = y → Pos.xf ⟨(w1.phys z).sweep.c, (w1.phys z).sweep.a⟩ (w1.phys z).sweep.localCenter = (w1.phys z).xf := fun z hz => (hm.posed z hz).symm
  obtain ⟨r, mm, wm, p1, hv, hrm, hwm, hp1, hcc⟩ := velocity_one (step := step) hb hcs hjs hci hok (by rw [hcim]; exact hm.pushing) hd hvi (fun wm hwm => by
    unfold ContactIn.worldAt at hwm
    rw [hciA, hciB, hpos x (.inl rfl), hpos y (.inr rfl), hclA, hclB, hxf x (.inl rfl), hxf y (.inr rfl), hcim, hcirA, hcirB] at hwm
    exact hm.unit wm hwm)
  have hWA : ci.worldAt (World.positionsOf states) = worldManifold (w1.cst c).manifold (w1.phys x).xf (w1.g.fixtures (w1.g.contacts c).fA).shape.radius (w1.phys y).xf (w1.g.fixtures (w1.g.contacts c).fB).shape.radius := by
    unfold ContactIn.worldAt
    rw [hciA, hciB, hpos x (.inl rfl), hpos y (.inr rfl), hclA, hclB, hxf x (.inl rfl), hxf y (.inr rfl), hcim, hcirA, hcirB]
  obtain ⟨q, hq, hqt⟩ := hB.point
  obtain ⟨wm', u, t1, t2, t3, t4, t5, t6, t7⟩ := hB.touch
  have hzz : z = x ∨ z = y := hB.pair.imp (·.1) (·.1)
  have hoo : o = x ∨ o = y := by
    rcases hB.pair with h | h
    · exact .inr h.2
    · exact .inl h.2
  have hor : (o = x ∧ z = y) ∨ (z = x ∧ o = y) := by
    rcases hB.pair with h | h
    · exact .inr h
    · exact .inl ⟨h.2, h.1⟩
  obtain ⟨o1, o2, o3, o4, -⟩ := hm.still o hoo hB.fixed
  have hnd' : w1.typeOf o ≠ .dynamic := by unfold World.typeOf; rw [hB.fixed]; decide
  have hdo : drivenVel step.dt w1 o = ⟨⟨0, 0⟩, 0⟩ := by
    unfold drivenVel
    rw [if_neg hnd', o1, o2]
  obtain ⟨r0, hr0, hrr⟩ : ∃ r0, velocityPhase ⟨step.jstep.warmStarting, step.jstep.dtRatio, step.velocityIterations, E.block, fun v => v, fun _ v => v⟩ (World.positionsOf states) (World.velocitiesOf states) [ci] = some r0 ∧
      r = ([], r0.2.1, r0.2.2) := by
    unfold Engine.velocity at hv
    rw [hcs, hjs] at hv
    have : [c].mapM v1.contactIn = some [ci] := by simp [hci]
    rw [this] at hv
    simp only [Option.bind_eq_bind, Option.bind_some, List.map_nil] at hv
    rw [islandVelocity_nil] at hv
    rw [Option.map_eq_some_iff] at hv
    obtain ⟨r0, h1, h2⟩ := hv
    exact ⟨r0, h1, h2.symm⟩
  have harm : ∀ a, a = x ∨ a = y → (w1.phys a).invI * cross (wm'.p1 - (w1.phys a).sweep.c) wm'.normal = 0 := by
    intro a ha
    by_cases haz : a = z
    · rw [haz, t4, mul_zero]
    · have : a = o := by
        rcases hB.pair with ⟨h1, h2⟩ | ⟨h1, h2⟩ <;> rcases ha with h3 | h3 <;> first | exact absurd (h3.trans h1.symm) haz | exact h3.trans h2.symm
      rw [this, o4, zero_mul]
  have hturn : ∀ a, a = x ∨ a = y → (drivenVel step.dt w1 a).w = 0 := by
    intro a ha
    by_cases haz : a = z
    · rw [haz]; exact hB.turn
    · have : a = o := by
        rcases hB.pair with ⟨h1, h2⟩ | ⟨h1, h2⟩ <;> rcases ha with h3 | h3 <;> first | exact absurd (h3.trans h1.symm) haz | exact h3.trans h2.symm
      rw [this, hdo]
  obtain ⟨y1, y2, y3, mm', pp, y4, y5, y6⟩ := velocityPhase_rest (q := q) (wm := wm') (u := u) (ci := ci) (r := r0) (fun _ => rfl) rfl hvi hd (by rw [hcim]; exact hq)
    (hm.pushing q (by rw [hq]; simp)) hqt hok.ne hok.mass (by rw [hcis]; exact hB.slides) (by rw [hcif]; exact hB.rough) (hWA.trans t1) t2
    (by rw [hciiA, hciA, hpos x (.inl rfl)]; exact harm x (.inl rfl)) (by rw [hciiB, hciB, hpos y (.inr rfl)]; exact harm y (.inr rfl))
    (by rw [hciA, hvl x (.inl rfl)]; exact hturn x (.inl rfl)) (by rw [hciB, hvl y (.inr rfl)]; exact hturn y (.inr rfl))
    (by rw [hciA, hciB, hvl x (.inl rfl), hvl y (.inr rfl)]; exact t7) t5 (by rw [hcit, hcir]; exact t6) hr0
  have hrv : r.2.1 = r0.2.1 := by rw [hrr]
  have hsv : ∀ i, E.env.solveVel v1 s.island step states i = ((r0.2.1.at' i).v, (r0.2.1.at' i).w) := by
    intro i
    show (match E.velocity v1 s.island step states with
      | some r => fun i => ((r.2.1.at' i).v, (r.2.1.at' i).w)
      | none => fun i => (((World.velocitiesOf states).at' i).v, ((World.velocitiesOf states).at' i).w)) _ = _
    rw [hv]
    dsimp only
    rw [hrv]
  have hvo : r0.2.1.at' (v1.phys o).islandIndex.toNat = ⟨⟨0, 0⟩, 0⟩ := by
    have hh := hH.velocity v1 s.island step states _ o _ b3 (hplace o hoo) (hstate o hoo) ((v1z o hoo).1.trans o3) ((v1z o hoo).2.1.trans o4)
    rw [hsv] at hh
    have q6 := (sready o hoo).2.2.2.2.2
    rw [hdo] at q6
    simp only [Prod.mk.injEq] at hh
    simp only [Vel.mk.injEq] at q6
    ext1
    · rw [hh.1]; exact q6.1
    · rw [hh.2]; exact q6.2
  have hva : ∀ a, a = x ∨ a = y → r0.2.1.at' (v1.phys a).islandIndex.toNat = ⟨⟨0, 0⟩, 0⟩ := by
    rw [hciA] at y1 y3
    rw [hciB] at y2 y3
    rcases hB.pair with ⟨h1, h2⟩ | ⟨h1, h2⟩
    · rw [h2] at hvo
      rintro a (rfl | rfl)
      · rw [hvo] at y3
        ext1
        · exact y3.symm
        · exact y1
      · exact hvo
    · rw [h2] at hvo
      rintro a (rfl | rfl)
      · exact hvo
      · rw [hvo] at y3
        ext1
        · exact y3
        · exact y2
  obtain ⟨s1, hs1⟩ : ∃ s1, s1 = (setVelocities states (E.env.solveVel v1 s.island step states)).map (integratePosition step.dt) := ⟨_, rfl⟩
  have hp1' : ∀ a, a = x ∨ a = y → (World.positionsOf s1).at' (v1.phys a).islandIndex.toNat = ⟨(w1.phys a).sweep.c, (w1.phys a).sweep.a⟩ := by
    intro a ha
    obtain ⟨q1, q2, -⟩ := sready a ha
    unfold World.positionsOf
    dsimp only
    have : s1[(v1.phys a).islandIndex.toNat]? = some ⟨(s.w.initState step.dt a).c, (s.w.initState step.dt a).a, ⟨0, 0⟩, 0⟩ := by
      rw [hs1]
      simp only [setVelocities, List.getElem?_map, List.getElem?_mapIdx, hstate a ha, Option.map_some, hsv, hva a ha]
      unfold integratePosition
      dsimp only
      rw [clamp_rest]
      congr 2
      · ext <;> simp
      · simp
    rw [this]
    dsimp only
    rw [← q1, ← q2]
    rfl
  have hbeg : Engine.begin v1 s.island step = states := by
    unfold Engine.begin
    rw [hstates]
    exact List.map_congr_left (fun b _ => b5 b)
  have hsp : ∀ a, a = x ∨ a = y → (E.env.solvePos v1 s.island step s1).1 (v1.phys a).islandIndex.toNat = ((w1.phys a).sweep.c, (w1.phys a).sweep.a) := by
    intro a ha
    show (match E.position v1 s.island step s1 with
      | some r => ((fun i => ((r.1.at' i).c, (r.1.at' i).a), r.2) : (Nat → Vec2 F × F) × Bool)
      | none => (fun i => (((World.positionsOf s1).at' i).c, ((World.positionsOf s1).at' i).a), false)).1 _ = _
    cases hpp : E.position v1 s.island step s1 with
    | none => dsimp only; rw [hp1' a ha]
    | some rp =>
      dsimp only
      have : rp.1 = World.positionsOf s1 := by
        unfold Engine.position at hpp
        rw [hbeg, hv, hrr, hcs] at hpp
        have hmp : [c].mapM v1.contactIn = some [ci] := by simp [hci]
        rw [hmp] at hpp
        simp only [Option.bind_eq_bind, Option.bind_some, Option.bind_eq_some_iff, List.mapM_cons, List.mapM_nil, Option.pure_def, Option.some.injEq] at hpp
        obtain ⟨_, ⟨⟨vc, pc⟩, g1, _, rfl, rfl⟩, g2⟩ := hpp
        have hxA : ((World.positionsOf s1).at' ci.indexA).xf ci.localCenterA = (w1.phys x).xf := by rw [hciA, hp1' x (.inl rfl), hclA]; exact hxf x (.inl rfl)
        have hxB : ((World.positionsOf s1).at' ci.indexB).xf ci.localCenterB = (w1.phys y).xf := by rw [hciB, hp1' y (.inr rfl), hclB]; exact hxf y (.inr rfl)
        obtain ⟨z1, z2, z3, z4, z5, z6⟩ := psm_world (xA := (w1.phys x).xf) (xB := (w1.phys y).xf) (wm := wm') (by rw [hcim]; exact hq) g1 (by rw [hcim, hcirA, hcirB]; exact t1) t2 (by rw [hcim]; exact hB.apart)
        refine islandPositions_rest z2 _ ?_ g2
        rw [z3, z4, z5, z6, hxA, hxB, z1]
        exact t3
      rw [this, hp1' a ha]
  have hzs : s.w.typeOf z ≠ .static := by unfold World.typeOf; rw [hsg]; exact hB.mobile
  obtain ⟨d1, d2, d3, d4, d5⟩ := b6 _ z (hplace z hzz) hzs s1 hs1
  rw [hsp z hzz] at d2 d3
  rw [hsv, hva z hzz, clamp_rest] at d1
  intro _
  have ecz := core_eq (releaseStatics_spares (b := z) v s.island.bodies).core
  have hdv : (v.phys z).v = ⟨0, 0⟩ ∧ (v.phys z).w = 0 := by
    rcases d1 with d1 | d1
    · exact d1
    · simpa using d1
  have hlc := (sready z hzz).2.2.1
  refine ⟨?_, ?_⟩
  · rw [hw2, ecz]
    refine ⟨hdv.1, hdv.2, d2, d3, ?_⟩
    show (v.phys z).xf = _
    rw [d5, hm.posed z hzz, d2, d3, d4, hlc]
  · have himp : E.env.impulses v1 s.island step 0 = mm'.points.map fun p => (p.normalImpulse, p.tangentImpulse) := by
      unfold Engine.env
      dsimp only
      rw [hbeg, hv]
      dsimp only
      rw [hrr]
      dsimp only
      rw [y4]
      rfl
    rw [show w2.cst c = { s.w.cst c with manifold := storeImpulses (s.w.cst c).manifold (E.env.impulses v1 s.island step 0) } by rw [hw2c]; exact b8 c hcs, hcm, himp]
    unfold storeImpulses
    intro p hp
    rw [hq, y5] at hp
    simp at hp
    rw [hp]
    exact y6

theorem seeds_rest (hr : RootBelow F) (hE : LeavesBodies E.env) (hS : Silent E.env) (hH : HeavyStay E.env) (hb : E.block = true) {step : TimeStep F} {c x y z o : Nat} {w1 : World F}
    (hd : 0 ≤ step.dtRatio) (hvi : 1 ≤ step.velocityIterations) (hi : GInv w1.g) (hm : Meet w1 c x y) (hB : Borne step.dt w1 c x y z o) (l : List Nat) :
    (∀ y ∈ l, y ∈ w1.g.bodyList) → ∀ {w w' : World F} {isls isls' : List Island} {seen : List Nat}, GI w1 w isls → TI w1 w isls seen → BI step.dt w1 c x y w → Rested w1 c z w →
      l.foldlM (solveSeed E.env step) (w, isls) = some (w', isls') → GI w1 w' isls' ∧ TI w1 w' isls' (seen ++ l) ∧ BI step.dt w1 c x y w' ∧ Rested w1 c z w' := by
  have hP := silent_calm hS
  induction l with
  | nil => intro _ w w' isls isls' seen h t m n e; cases e; rw [List.append_nil]; exact ⟨h, t, m, n⟩
  | cons a l ih =>
    intro hl w w' isls isls' seen h t m n e
    have hl' : ∀ b ∈ l, b ∈ w1.g.bodyList := fun b hb => hl b (by simp [hb])
    have haa : a ∈ w1.g.bodyList := hl a (by simp)
    rw [List.foldlM_cons] at e
    have happ : seen ++ a :: l = (seen ++ [a]) ++ l := by simp
    rw [happ]
    rcases solveSeed_spec (env := E.env) (step := step) (isls := isls) (by rw [h.g]; exact hi) h.ends (show a ∈ w.g.bodyList by rw [h.g]; exact haa) with ⟨p, q⟩ | ⟨p, s, s1, a2, a3, a4, a5, q⟩
    · rw [q] at e
      refine ih hl' h ⟨t.toCI, t.awake, t.reach, t.onlyC, t.onlyJ, ?_⟩ m n e
      intro b hb h1 h2 h3
      rcases List.mem_append.mp hb with hb | hb
      · exact t.covered b hb h1 h2 h3
      · rw [List.mem_singleton] at hb; subst hb
        by_contra hf
        rw [Bool.not_eq_true] at hf
        have := isSeed_iff.mpr ⟨hf, by rw [t.awake b haa h3 hf]; exact h1, by rw [h.g]; exact h2, by rw [h.g]; exact h3⟩
        rw [p] at this; cases this
    · rw [q] at e
      cases e1 : s.w.islandSolve E.env s.w.g.bodyCount s.island step with
      | none => rw [e1] at e; cases e
      | some v =>
        rw [e1] at e
        exact ih hl' (h.seed a2 a3 e1) (t.seed hP hi h p haa a2 a3 a4 e1) (m.seed hr hE hS hH hb hd hvi hi hm h t p s1 haa a2 a3 a4 e1) (Rested.seed hr hE hS hH hb hd hvi hi hm hB n h t m p s1 haa a2 a3 a4 e1) e

theorem solveIslands_rest (hr : RootBelow F) (hE : LeavesBodies E.env) (hS : Silent E.env) (hH : HeavyStay E.env) (hb : E.block = true) {step : TimeStep F} {c x y z o : Nat} {w w' : World F}
    {isls : List Island} (hd : 0 ≤ step.dtRatio) (hvi : 1 ≤ step.velocityIterations) (hw : GInv w.g) (hm : Meet w c x y) (hB : Borne step.dt w c x y z o) (hv : (w.phys z).v = ⟨0, 0⟩) (hw0 : (w.phys z).w = 0) (e : w.solveIslands E.env step = some (w', isls)) :
    Halted (w.phys z) (w'.phys z) ∧ ∀ p ∈ (w'.cst c).manifold.points, p.tangentImpulse = 0 := by
  have m := (clearIslandFlags_mild w).toWFrame
  unfold solveIslands at e
  have hcon := clearIslandFlags_con c w
  have hM : BI step.dt w c x y w.clearIslandFlags := by
    have hcf : (w.clearIslandFlags.cst c).island = false := (clearIslandFlags_spec w).2.1 c hm.tr.mem
    have hman : (w.clearIslandFlags.cst c).manifold = (w.cst c).manifold := by rw [hcon]
    refine ⟨m.gravity, fun z _ _ _ => (clearIslandFlags_spares w).core, fun z hz hs => ?_, ⟨?_, by rw [hman]; exact .refl _⟩, fun _ => hman, fun hf => by rw [hcf] at hf; cases hf⟩
    · obtain ⟨k1, k2, k3, k4, k5, k6⟩ := hm.still z hz hs
      have h0 : At z (Heavy0 .static True (w.phys z)) w := ⟨⟨hs, k3, k4, rfl, rfl, rfl, rfl, hm.posed z hz, fun h => absurd ⟨k1, k2⟩ h⟩, rfl, rfl, fun _ => ⟨k5, k6⟩⟩
      exact h0.spares (clearIslandFlags_spares w) (fun _ _ _ => Heavy0.core)
    · rw [hman]
      exact hcon
  have hcf' : Rested w c z w.clearIslandFlags := fun hf => by
    rw [(clearIslandFlags_spec w).2.1 c hm.tr.mem] at hf; cases hf
  obtain ⟨g, t, mi, ni⟩ := seeds_rest hr hE hS hH hb hd hvi hw hm hB _ (fun y hy => by rw [m.g] at hy; exact hy) (GI.start w) (TI.start w) hM hcf' e
  have hz : z = x ∨ z = y := hB.pair.imp (·.1) (·.1)
  by_cases hci : (w'.cst c).island = true
  · exact ni hci
  have hzf : (w'.phys z).island = false := by
    by_contra hf
    rw [Bool.not_eq_false] at hf
    obtain ⟨-, I, hI, hzI⟩ := (g.flag z (hm.mem z hz)).mp hf
    have hcI : c ∈ I.contacts := by
      rcases hz with rfl | rfl
      · exact (t.closedC I hI z hzI hB.mobile c y hm.tr (.inl ⟨hm.bodyA, hm.bodyB⟩)).1
      · exact (t.closedC I hI z hzI hB.mobile c x hm.tr (.inr ⟨hm.bodyA, hm.bodyB⟩)).1
    exact hci ((g.cflag c hm.tr.mem).mpr ⟨I, hI, hcI⟩)
  have ec := core_eq (mi.core z hz hB.mobile hzf)
  obtain ⟨q, hq, hqt⟩ := hB.point
  refine ⟨?_, ?_⟩
  · rw [ec]; exact ⟨hv, hw0, rfl, rfl, rfl⟩
  · rw [mi.fresh (by simpa using hci), hq]
    intro p hp
    rw [List.mem_singleton] at hp
    rw [hp]; exact hqt

/-- The coefficients of a contact. -/
def CState.mix (s : CState F) : F × F × F × F := (s.friction, s.restitution, s.restitutionThreshold, s.tangentSpeed)

theorem islandSolve_mix (hS : Silent E.env) {v v' : World F} {cap : Nat} {isl : Island} {step : TimeStep F} (c : Nat)
    (e : v.islandSolve E.env cap isl step = some v') : (v'.cst c).mix = (v.cst c).mix := by
  obtain ⟨u, r, e1, rfl⟩ := islandSolve_inv e
  have m0 : (u.cst c).mix = (v.cst c).mix := by
    unfold islandMove at e1
    split at e1
    · cases e1
    simp only [Option.bind_eq_bind, Option.bind_eq_some_iff] at e1
    obtain ⟨v3, e1, e'⟩ := e1
    cases e'
    rw [(report_silent hS e1).trans (writeBack_cst _ _ _)]
    refine foldl_inv (fun x : World F => (x.cst c).mix = (v.cst c).mix) ?_ (fun x _ y h => ?_)
    · exact foldl_inv (fun x : World F => (x.cst c).mix = (v.cst c).mix) rfl (fun _ _ _ h => h)
    · unfold World.setCst
      dsimp only
      by_cases hc : c = x.1
      · subst hc
        rw [upd_same]
        exact h
      · rw [upd_other _ _ hc]; exact h
  split
  · rw [sleepIsland_cst]; exact m0
  · exact m0

theorem seeds_mix (hS : Silent E.env) {step : TimeStep F} (c : Nat) (l : List Nat) : ∀ {u u' : World F} {i i' : List Island},
    l.foldlM (solveSeed E.env step) (u, i) = some (u', i') → (u'.cst c).mix = (u.cst c).mix := by
  induction l with
  | nil => intro u u' i i' e; cases e; rfl
  | cons a l ih =>
    intro u u' i i' e
    rw [List.foldlM_cons] at e
    simp only [Option.bind_eq_bind, Option.bind_eq_some_iff] at e
    obtain ⟨⟨u1, i1⟩, e1, e2⟩ := e
    refine (ih e2).trans ?_
    unfold solveSeed at e1
    split at e1
    · cases e1; rfl
    simp only [Option.bind_eq_bind, Option.bind_eq_some_iff] at e1
    obtain ⟨s, e3, v, e4, e5⟩ := e1
    cases e5
    rw [releaseStatics_cst, islandSolve_mix hS c e4, buildIsland_con (c := c) e3]
    rfl

theorem solve_rest (hr : RootBelow F) (hE : LeavesBodies E.env) (hS : Silent E.env) (hH : HeavyStay E.env) (hb : E.block = true) {step : TimeStep F} {c x y z o : Nat} {w w' : World F}
    (hd : 0 ≤ step.dtRatio) (hvi : 1 ≤ step.velocityIterations) (hw : WInv w) (htr : Transmits w' c) (e : w.solve E.env step = some w')
    (hm : Transmits w c → w'.g.contacts c = w.g.contacts c → Restamped (w.cst c).manifold (w'.cst c).manifold → (w'.cst c).mix = (w.cst c).mix → (∀ c, Transmits w c → Transmits w' c ∧ w'.g.contacts c = w.g.contacts c ∧ w'.g.fixtures = w.g.fixtures) → Meet w c x y ∧ Borne step.dt w c x y z o)
    (hv : (w.phys z).v = ⟨0, 0⟩) (hw0 : (w.phys z).w = 0) :
    Halted (w.phys z) (w'.phys z) ∧ ∀ p ∈ (w'.cst c).manifold.points, p.tangentImpulse = 0 := by
  have hP := silent_calm hS
  have hPL : PostSolveLinks E.env := fun x y c h => (hP x y c h).2
  have htrs : ∀ c, Transmits w c → Transmits w' c ∧ w'.g.contacts c = w.g.contacts c ∧ w'.g.fixtures = w.g.fixtures := fun c hc => solve_transmits hPL hw e hc
  unfold solve at e
  simp only [Option.bind_eq_bind, Option.bind_eq_some_iff] at e
  obtain ⟨⟨w1, isl⟩, e1, w2, e2, e3⟩ := e
  have m1 := (solveIslands_mild e1).toWFrame
  dsimp only at e2
  have b2 : WInv w2 ∧ w2.fattr = w1.fattr ∧ w2.cst = w1.cst ∧ w2.g = w1.g ∧ w2.phys = w1.phys := by
    refine foldlM_inv (fun x : World F => WInv x ∧ x.fattr = w1.fattr ∧ x.cst = w1.cst ∧ x.g = w1.g ∧ x.phys = w1.phys) e2 ⟨hw.frame m1.g m1.bp, rfl, rfl, rfl, rfl⟩ ?_
    intro b _ x x' hx hv
    split at hv
    · cases hv; exact hx
    split at hv
    · cases hv; exact hx
    obtain ⟨w2, k1, k2, k3⟩ := synchronizeFixtures_spec b hx.1.pinv
    rw [k1] at hv
    cases hv
    have g : Good E.env x x' := .bpf hx.1 k2 k3
    exact ⟨g.winv, (by rw [k2.eq]; exact hx.2.1), (by rw [k2.eq]; exact hx.2.2.1), (by rw [k2.eq]; exact hx.2.2.2.1), k2.phys.trans hx.2.2.2.2⟩
  obtain ⟨h2, f2, c2, g2, p2⟩ := b2
  obtain ⟨w3, x3, hw', -⟩ := findNewContacts_spec h2 e3
  have hph : w'.phys = w1.phys := (findNewContacts_phys e3).trans p2
  have hfa : w'.fattr = w1.fattr := by rw [hw']; exact x3.fattr.trans f2
  have hwg : w'.g = w3.g := by rw [hw']
  have hwc : w'.cst = w3.cst := by rw [hw']
  have kept : Kept w w1 := by
    have := (seeds_spec (env := E.env) (step := step) hw.toGInv w.clearIslandFlags.g.bodyList (fun y hy => by rw [(clearIslandFlags_mild w).g] at hy; exact hy) (GI.start w) (fun _ => TI.start w) (fun _ => CI.start w)).2 w1 isl e1
    exact (this.2.2 hPL).kept
  have hlt : c < w2.g.nextContact := by
    by_contra hge
    have := (x3.new c (by rw [← hwg]; exact htr.mem) (not_lt.mp hge)).1
    rw [← hwc, htr.touching] at this
    cases this
  obtain ⟨o1, o2, o3⟩ := x3.old c hlt
  have hcst : w'.cst c = w1.cst c := by rw [hwc, o2, c2]
  have hcon : w'.g.contacts c = w.g.contacts c := by rw [hwg, o1, g2, kept.g]
  have htw : Transmits w c := by
    refine ⟨?_, ?_, ?_, ?_, ?_⟩
    · have := o3.mp (by rw [← hwg]; exact htr.mem)
      rwa [g2, kept.g] at this
    · rw [← kept.enabled, ← hcst]; exact htr.enabled
    · rw [← kept.touching, ← hcst]; exact htr.touching
    · rw [← kept.sensor, ← hfa, ← hcon]; exact htr.solidA
    · rw [← kept.sensor, ← hfa, ← hcon]; exact htr.solidB
  have hre : Restamped (w.cst c).manifold (w1.cst c).manifold := by
    have h0 : (w.clearIslandFlags.cst c).manifold = (w.cst c).manifold := by rw [clearIslandFlags_con c w]
    have := seeds_restamped hS c _ e1
    rwa [h0] at this
  have hmx : (w1.cst c).mix = (w.cst c).mix := by
    have := seeds_mix hS c _ e1
    rw [clearIslandFlags_con c w] at this
    exact this
  have hM := hm htw hcon (by rw [hcst]; exact hre) (by rw [hcst]; exact hmx) htrs
  have key := solveIslands_rest hr hE hS hH hb hd hvi hw.toGInv hM.1 hM.2 hv hw0 e1
  rw [hph, hcst]
  exact key


/-! ### Impulses along the tangent before the islands are solved -/

/-- The contact does not drag. -/
def Gripless (c : Nat) (w : World F) : Prop := ∀ p ∈ (w.cst c).manifold.points, p.tangentImpulse = 0

variable {env : Env F}

theorem listen_cst (hN : ∀ w k, env.react w k = []) {w w' : World F} {k : EventKind} (e : w.listen env k = some w') : w'.cst = w.cst := by
  unfold listen at e
  split at e
  · unfold emit at e
    dsimp only at e
    rw [hN] at e
    cases e; rfl
  · cases e; rfl

theorem listens_cst (hN : ∀ w k, env.react w k = []) {w w' : World F} {p : Prop} [Decidable p] {k : EventKind} (e : (if p then w.listen env k else some w) = some w') : w'.cst = w.cst := by
  split at e
  · exact listen_cst hN e
  · cases e; rfl

theorem filterCollide_cst (env : Env F) (w : World F) (fA fB : Nat) : (w.filterCollide env fA fB).2.cst = w.cst := by
  unfold filterCollide
  split <;> rfl

theorem refresh_slick {c d : Nat} {w w' : World F} (h : Gripless c w) (e : w.refresh env d = some w') : Gripless c w' := by
  by_cases hcd : c = d
  swap
  · have := (refresh_points e).2.2.2.1 c hcd
    unfold Gripless
    rw [this]; exact h
  subst hcd
  unfold refresh at e
  simp only [Option.bind_eq_bind, Option.bind_eq_some_iff] at e
  obtain ⟨bA, -, bB, -, e⟩ := e
  have at' : ∀ (v : World F) (s : CState F), (v.setCst c s).cst c = s := fun v s => upd_same _ _ _
  split at e
  · rw [Option.bind_eq_some_iff] at e
    obtain ⟨t, -, e⟩ := e
    cases e
    unfold Gripless
    rw [at']
    intro p hp; cases hp
  · rw [Option.bind_eq_some_iff] at e
    obtain ⟨m, -, e⟩ := e
    cases e
    unfold Gripless
    rw [at']
    have hm : ∀ p ∈ m.points.map (matchImpulse ((w.setCst c { w.cst c with enabled := true }).cst c).manifold.points), p.tangentImpulse = 0 := by
      intro p hp
      obtain ⟨q, -, rfl⟩ := List.mem_map.mp hp
      unfold matchImpulse
      split
      · rename_i r hr
        have := List.mem_of_find?_eq_some hr
        rw [at'] at this
        exact h r this
      · rfl
    dsimp only
    split
    · exact (congrArg (fun s : CState F => ∀ p ∈ s.manifold.points, p.tangentImpulse = 0) (at' _ _)).mpr hm
    · exact (congrArg (fun s : CState F => ∀ p ∈ s.manifold.points, p.tangentImpulse = 0) (at' _ _)).mpr hm

theorem contactUpdate_slick (hN : ∀ w k, env.react w k = []) {c d : Nat} {w w' : World F} (h : Gripless c w) (e : w.contactUpdate env d = some w') : Gripless c w' := by
  unfold contactUpdate at e
  simp only [Option.bind_eq_bind, Option.bind_eq_some_iff] at e
  obtain ⟨w1, h1, w2, h2, w3, h3, h4⟩ := e
  unfold Gripless
  rw [listens_cst hN h4, listens_cst hN h3, listens_cst hN h2]
  exact refresh_slick h h1

theorem contactDestroy_cst (hN : ∀ w k, env.react w k = []) {w w' : World F} {c : Nat} (e : w.contactDestroy env c = some w') : w'.cst = w.cst := by
  unfold contactDestroy at e
  simp only [Option.bind_eq_bind, Option.bind_eq_some_iff] at e
  obtain ⟨bA, -, bB, -, w1, e1, w2, e2, e3⟩ := e
  cases e3
  have h1 := listens_cst hN e1
  have h2 : w2.cst = w1.cst := by
    unfold unlink at e2
    simp only [Option.bind_eq_bind, Option.bind_eq_some_iff] at e2
    obtain ⟨cl, -, _, -, _, -, e2⟩ := e2
    split at e2
    · cases e2
    · cases e2; rfl
  rw [← h1, ← h2]
  unfold wakeOnDestroy
  split <;> rfl

theorem collide_slick (hN : ∀ w k, env.react w k = []) {d : Nat} {w w' : World F} (h : Gripless d w) (e : w.collide env = some w') : Gripless d w' := by
  unfold collide at e
  simp only [Option.bind_eq_bind, Option.bind_eq_some_iff] at e
  obtain ⟨⟨w1, ds⟩, e1, e2⟩ := e
  have act : ∀ {v v' : World F} {c bA bB : Nat} {r : Bool}, Gripless d v → v.collideActive env c bA bB = some (v', r) → Gripless d v' := by
    intro v v' c bA bB r h e
    unfold collideActive at e
    dsimp only at e
    split at e
    · cases e; exact h
    simp only [Option.bind_eq_bind, Option.bind_eq_some_iff] at e
    obtain ⟨_, -, _, -, _, -, _, -, _, -, e⟩ := e
    split at e
    · cases e; exact h
    simp only [Option.bind_eq_some_iff] at e
    obtain ⟨u, e, e'⟩ := e
    cases e'
    exact contactUpdate_slick hN h e
  have one : ∀ {v v' : World F} {c : Nat} {r : Bool}, Gripless d v → v.collideOne env c = some (v', r) → Gripless d v' := by
    intro v v' c r h e
    unfold collideOne at e
    simp only [Option.bind_eq_bind, Option.bind_eq_some_iff] at e
    obtain ⟨_, -, _, -, e⟩ := e
    have hq : Gripless d (v.filterCollide env (v.g.contacts c).fA (v.g.contacts c).fB).2 := by
      unfold Gripless; rw [filterCollide_cst]; exact h
    split at e
    · split at e
      · cases e; exact h
      split at e
      · cases e; exact hq
      · refine act ?_ e
        unfold Gripless World.setCst
        dsimp only
        by_cases hc : d = c
        · subst hc; rw [upd_same]; exact hq
        · rw [upd_other _ _ hc]; exact hq
    · exact act h e
  have loop : ∀ (l : List Nat) {v v' : World F} {a a' : List Nat}, Gripless d v → collideLoop env l v a = some (v', a') → Gripless d v' := by
    intro l
    induction l with
    | nil => intro v v' a a' h e; cases e; exact h
    | cons c l ih =>
      intro v v' a a' h e
      unfold collideLoop at e
      simp only [Option.bind_eq_bind, Option.bind_eq_some_iff] at e
      obtain ⟨⟨u, k⟩, e1, e2⟩ := e
      exact ih (one h e1) e2
  refine foldlM_inv (fun x : World F => Gripless d x) e2 (loop _ h e1) (fun c _ v v' hv e => ?_)
  unfold Gripless
  rw [contactDestroy_cst hN e]; exact hv

theorem findNewContacts_slick {d : Nat} {w w' : World F} (h : Gripless d w) (e : w.findNewContacts env = some w') : Gripless d w' := by
  unfold findNewContacts BroadPhase.updatePairs BroadPhase.sendPairs at e
  simp only [Option.bind_eq_bind, Option.bind_eq_some_iff] at e
  obtain ⟨⟨bp, r⟩, ⟨pairs, -, r', e1, tree, -, e2⟩, w1, e3, e4⟩ := e
  cases e2
  cases e4
  have := foldlM_inv (fun r : Option (World F) => ∀ v, r = some v → Gripless d v) e1 (fun v hv => by cases hv; exact h) (by
    intro i _ c c' hc h v hv
    simp only [Option.bind_eq_some_iff] at h
    obtain ⟨p, -, a, -, b, -, h⟩ := h
    cases h
    rw [Option.bind_eq_some_iff] at hv
    obtain ⟨u, hu, e⟩ := hv
    have hu := hc u hu
    unfold addPair at e
    simp only [Option.bind_eq_bind, Option.bind_eq_some_iff] at e
    obtain ⟨pa, -, pb, -, xa, -, xb, -, fA, -, fB, -, bA, -, bB, -, e⟩ := e
    split at e
    · cases e; exact hu
    split at e
    · cases e; exact hu
    split at e
    · cases e; exact hu
    have hq : Gripless d (u.filterCollide env fA fB).2 := by
      unfold Gripless; rw [filterCollide_cst]; exact hu
    split at e
    · cases e; exact hq
    · simp only [Option.bind_eq_some_iff] at e
      obtain ⟨k, -, e⟩ := e
      unfold insertContact at e
      simp only [Option.bind_eq_bind, Option.bind_eq_some_iff] at e
      obtain ⟨bA, -, bB, -, e⟩ := e
      cases e
      show ∀ p ∈ (upd (u.filterCollide env fA fB).2.cst (u.filterCollide env fA fB).2.g.nextContact _ d).manifold.points, p.tangentImpulse = 0
      by_cases hd : d = (u.filterCollide env fA fB).2.g.nextContact
      · rw [hd, upd_same]
        intro p hp; cases hp
      · rw [upd_other _ _ hd]
        exact hq)
  exact this w1 e3

theorem stepBegin_slick {d : Nat} {w w' : World F} (h : Gripless d w) (e : w.stepBegin env = some w') : Gripless d w' := by
  unfold stepBegin at e
  split at e
  · simp only [Option.bind_eq_bind, Option.bind_eq_some_iff] at e
    obtain ⟨v, e1, e2⟩ := e
    cases e2
    exact findNewContacts_slick (w' := v) h e1
  · cases e; exact h

/-- A body that rests on another, through a whole step. -/
theorem step_rest (hr : RootBelow F) (hN : ∀ w k, E.react w k = []) (hH : HeavyStay E.env) (hb : E.block = true) {c x y z o : Nat}
    {w w' : World F} {dt : F} {vi pi : Nat} (hw : WInv w) (hc : w.stepComplete = true) (hcont : w.continuous = false) (hdt : 0 < dt) (hvi : 1 ≤ vi)
    (hcons : ∀ z ∈ w.g.bodyList, Consistent (w.typeOf z) (w.phys z)) (hrest : ∀ z ∈ w.g.bodyList, Rests (w.typeOf z) (w.phys z)) (hpr : Pressing w)
    (hR : AtRest w c z) (hB : BornBy dt w w' c x y z o) (e : w.step E.env dt vi pi = some w') :
    AtRest w' c z ∧ SamePlace w w' z := by
  have hE : LeavesBodies E.env := fun w k op h => by
    rw [show E.env.react w k = [] from hN w k] at h; cases h
  have hC : CallbacksTame E.env := fun w k op h => by
    rw [show E.env.react w k = [] from hN w k] at h; cases h
  have hS : Silent E.env := fun w c => hN w _
  have hM := hB.meet
  have hsound := hB.sound
  unfold step at e
  simp only [Option.bind_eq_bind, Option.bind_eq_some_iff] at e
  obtain ⟨w1, e1, w2, e2, e3⟩ := e
  unfold stepLocked at e2
  simp only [Option.bind_eq_bind, Option.bind_eq_some_iff] at e2
  obtain ⟨w3, e4, w4, e5, w5, e6, e7⟩ := e2
  have c1 : ∀ b, Calms b w w1 := by
    intro b
    unfold stepBegin at e1
    split at e1
    · simp only [Option.bind_eq_bind, Option.bind_eq_some_iff] at e1
      obtain ⟨v, e1, e1'⟩ := e1
      cases e1'
      exact ((findNewContacts_spares hw e1).trans (.unmoved (w := v) (w' := { v with newContacts := false }) rfl rfl rfl)).calms
    · cases e1; exact (Spares.refl _).calms
  obtain ⟨v, g1, rfl, -⟩ := stepBegin_good hw e1
  have hw1 : WInv { v with newContacts := false, locked := true } := g1.winv.frame rfl rfl
  obtain ⟨g3, -⟩ := collide_good hw1 e4
  have c3 : ∀ b, Calms b w w3 := fun b => ((c1 b).trans (Spares.unmoved (w := { v with newContacts := false }) (w' := { v with newContacts := false, locked := true }) rfl rfl rfl).calms).trans (collide_calms hE hw1 e4)
  have lists : SameLists w.g w3.g := by
    have a1 := g3.body
    have a2 := g3.eq
    dsimp only at a1 a2
    exact ⟨fun y => by rw [a1, g1.body], by rw [a2, g1.eq]⟩
  have hr3 : w3.gravity = w.gravity ∧ w3.allowSleep = w.allowSleep ∧ w3.continuous = w.continuous ∧ w3.stepComplete = w.stepComplete := by
    refine ⟨g3.rest.gravity.trans g1.rest.gravity, g3.rest.allowSleep.trans g1.rest.allowSleep, g3.rest.continuous.trans g1.rest.continuous, g3.rest.stepComplete.trans g1.rest.stepComplete⟩
  have hts : World.timeStep { { v with newContacts := false } with locked := true } dt vi pi = w.timeStep dt vi pi := by
    unfold World.timeStep
    dsimp only
    rw [g1.rest.invDt0, show v.warmStarting = w.warmStarting by rw [g1.rest.eq]]
  rw [hts] at e5 e6 e7
  have hd : (w.timeStep dt vi pi).dt = dt := rfl
  rw [hd] at e5 e6 e7
  rw [if_pos ⟨hr3.2.2.2.trans hc, hdt⟩] at e5
  have g4 := solve_good g3.winv e5
  rw [if_neg (fun h => by
    have := h.1
    rw [g4.rest.continuous, hr3.2.2.1, hcont] at this; cases this)] at e6
  cases e6

  have hb4 : w4.g.bodyList = w.g.bodyList := by rw [g4.bodyList, lists.eq]
  have hnd4 : w4.g.bodyList.Nodup := g4.winv.body.nodup
  have fin : (∀ b ∈ w.g.bodyList, (w'.phys b).v = (w4.phys b).v ∧ (w'.phys b).w = (w4.phys b).w ∧ (w'.phys b).sweep = (w4.phys b).sweep ∧ (w'.phys b).xf = (w4.phys b).xf) ∧ w'.g = w4.g ∧ w'.cst = w4.cst ∧ w'.fattr = w4.fattr := by
    cases e3
    cases e7
    generalize hx : (if dt > 0 then { w4 with invDt0 := (w.timeStep dt vi pi).invDt } else w4) = x
    have hx' : x.phys = w4.phys ∧ x.g = w4.g ∧ x.bp = w4.bp ∧ x.cst = w4.cst ∧ x.fattr = w4.fattr := by rw [← hx]; split <;> exact ⟨rfl, rfl, rfl, rfl, rfl⟩
    obtain ⟨x1, x2, x3, x4, x5⟩ := hx'
    split
    · have hnd : x.g.bodyList.Nodup := by rw [x2]; exact hnd4
      have fc : x.clearForcesAll.cst = x.cst ∧ x.clearForcesAll.fattr = x.fattr ∧ x.clearForcesAll.g = x.g := by
        unfold clearForcesAll
        refine foldl_inv (fun u : World F => u.cst = x.cst ∧ u.fattr = x.fattr ∧ u.g = x.g) ⟨rfl, rfl, rfl⟩ ?_
        intro y _ u h
        exact h
      refine ⟨fun b hb => ?_, fc.2.2.trans x2, fc.1.trans x4, fc.2.1.trans x5⟩
      obtain ⟨t1, t2, t3⟩ := clearForcesAll_phys (w := x) (b := b) hnd (by rw [x2, hb4]; exact hb)
      show (x.clearForcesAll.phys b).v = _ ∧ (x.clearForcesAll.phys b).w = _ ∧ (x.clearForcesAll.phys b).sweep = _ ∧ (x.clearForcesAll.phys b).xf = _
      rw [t1, x1]
      exact ⟨rfl, rfl, rfl, rfl⟩
    · exact ⟨fun b hb => by show (x.phys b).v = _ ∧ (x.phys b).w = _ ∧ (x.phys b).sweep = _ ∧ (x.phys b).xf = _; rw [x1]; exact ⟨rfl, rfl, rfl, rfl⟩, x2, x4, x5⟩
  obtain ⟨fin, fg, fcst, ffa⟩ := fin
  have hcore : ∀ b, (w3.phys b).core = (w.phys b).core := fun b => (c3 b).core
  have htr4 : Transmits w4 c := by
    have t := hM.transmits
    exact ⟨by rw [← fg]; exact t.mem, by rw [← fcst]; exact t.enabled, by rw [← fcst]; exact t.touching, by rw [← fg, ← ffa]; exact t.solidA, by rw [← fg, ← ffa]; exact t.solidB⟩
  have hpr3 : Pressing w3 := by
    have k1 : Pressing { v with newContacts := false } := (stepBegin_keep2 e1).push hpr
    exact (collide_keep2 hC e4).push k1
  have ht4 : ∀ b, w4.typeOf b = w.typeOf b := fun b => by
    unfold World.typeOf
    rw [g4.body, lists.body]
  obtain ⟨-, hok⟩ : True ∧ ∀ z, z = x ∨ z = y → z ∈ w.g.bodyList ∧ (w.g.bodies z).enabled = true := by
    refine ⟨trivial, ?_⟩
    obtain ⟨bA, bB, o1, o2, -, ⟨pA, m1, n1, q1, -⟩, ⟨pB, m2, n2, q2, -⟩, -⟩ := g4.winv.ok c htr4.mem
    have hA := hM.bodyA
    have hB := hM.bodyB
    rw [fg] at hA hB
    rw [hA] at q1; rw [hB] at q2
    cases q1; cases q2
    rw [hb4] at m1 m2
    have hen : ∀ b, (w4.g.bodies b).enabled = (w.g.bodies b).enabled := fun b => by rw [g4.body, lists.body]
    rw [hen] at n1 n2
    rintro z (rfl | rfl)
    · exact ⟨m1, n1⟩
    · exact ⟨m2, n2⟩
  have ht3 : ∀ b, w3.typeOf b = w.typeOf b := fun b => by
    unfold World.typeOf
    rw [lists.body]
  have hzz : z = x ∨ z = y := hB.pair.imp (·.1) (·.1)
  have hoo : o = x ∨ o = y := by
    rcases hB.pair with h | h
    · exact .inr h.2
    · exact .inl h.2
  have hcase : ∀ a, a = x ∨ a = y → a = z ∨ a = o := by
    intro a ha
    rcases hB.pair with ⟨h1, h2⟩ | ⟨h1, h2⟩ <;> rcases ha with h3 | h3 <;> first | exact .inl (h3.trans h1.symm) | exact .inr (h3.trans h2.symm)
  have hcz := core_eq (hcore z)
  have hdr : ∀ z, drivenVel dt w3 z = drivenVel dt w z := fun z => by
    unfold drivenVel
    rw [ht3, hr3.1, freeV_core (hcore z), show freeW dt (w3.phys z) = freeW dt (w.phys z) by rw [core_eq (hcore z)]; rfl, core_eq (hcore z)]
  obtain ⟨r1, r2, -⟩ := hrest o (hok o hoo).1 hB.fixed
  obtain ⟨-, km, -, ki⟩ := (hcons o (hok o hoo).1).heavy (by rw [hB.fixed]; decide)
  have hmass : ∀ a, a = x ∨ a = y → 0 ≤ (w.phys a).invMass ∧ 0 ≤ (w.phys a).invI := by
    intro a ha
    rcases hcase a ha with rfl | rfl
    · exact ⟨hB.mass.le, hB.inertia⟩
    · rw [km, ki]; exact ⟨le_rfl, le_rfl⟩
  have hsome : 0 < (w.phys x).invMass + (w.phys y).invMass := by
    rcases hB.pair with ⟨h1, h2⟩ | ⟨h1, h2⟩
    · rw [← h1, ← h2, km, add_zero]; exact hB.mass
    · rw [← h1, ← h2, km, zero_add]; exact hB.mass
  obtain ⟨wm0, t1, t2, t3, t4, k, t5, t6, t7⟩ := hB.touch
  have hunit : ∀ wm, worldManifold (w'.cst c).manifold (w.phys x).xf (w'.g.fixtures (w'.g.contacts c).fA).shape.radius (w.phys y).xf (w'.g.fixtures (w'.g.contacts c).fB).shape.radius = some wm →
      dot wm.normal wm.normal = 1 := by
    intro wm hwm
    rw [t1] at hwm
    cases hwm
    exact t2
  have hslick : Gripless c w3 := by
    have h1 := stepBegin_slick (env := E.env) (show Gripless c w from hR.grip) e1
    refine collide_slick (env := E.env) (fun w k => hN w k) ?_ e4
    exact h1
  have key := solve_rest hr hE hS hH hb (step := w.timeStep dt vi pi) (c := c) (x := x) (y := y) (z := z) (o := o) (timeStep_pos hpr.2 hdt).1 hvi g3.winv htr4 e5 (fun htw hcon hso hmix htrs => by
    obtain ⟨-, -, hfx⟩ := htrs c htw
    have hA := hM.bodyA
    have hBB := hM.bodyB
    rw [fg, hcon, hfx] at hA hBB
    have hwme : ∀ wm, worldManifold (w3.cst c).manifold (w3.phys x).xf (w3.g.fixtures (w3.g.contacts c).fA).shape.radius (w3.phys y).xf (w3.g.fixtures (w3.g.contacts c).fB).shape.radius = some wm ↔
        worldManifold (w'.cst c).manifold (w.phys x).xf (w'.g.fixtures (w'.g.contacts c).fA).shape.radius (w.phys y).xf (w'.g.fixtures (w'.g.contacts c).fB).shape.radius = some wm := by
      intro wm
      rw [fcst, fg, hcon, hfx, ← show (w3.phys x).xf = (w.phys x).xf by rw [core_eq (hcore x)], ← show (w3.phys y).xf = (w.phys y).xf by rw [core_eq (hcore y)], hso.world]
    refine ⟨?_, ?_⟩
    · refine ⟨htw, hA, hBB, fun z hz => by rw [lists.eq]; exact (hok z hz).1, fun z hz => by rw [lists.body]; exact (hok z hz).2, fun z hz hs c' hc' ho => ?_, fun z hz hs j hj => ?_,
        fun z hz => by rw [core_eq (hcore z)]; exact hmass z hz, by rw [core_eq (hcore x), core_eq (hcore y)]; exact hsome, fun z hz hs => ?_, fun z hz => ?_, hpr3.1 c,
        fun wm hwm => hunit wm ((hwme wm).mp hwm), hso.sound (by rw [← fcst]; exact hsound)⟩
      · obtain ⟨t1, t2, t3⟩ := htrs c' hc'
        refine hM.only z hz ?_ c' ⟨by rw [fg]; exact t1.mem, by rw [fcst]; exact t1.enabled, by rw [fcst]; exact t1.touching, by rw [fg, ffa]; exact t1.solidA, by rw [fg, ffa]; exact t1.solidB⟩ ?_
        · unfold World.typeOf; rw [fg, g4.body]; exact hs
        · unfold OfBody at ho ⊢
          rw [fg, t2, t3]; exact ho
      · have hjo : w4.g.joints = w3.g.joints ∧ w4.g.jointList = w3.g.jointList := by rw [g4.eq]; exact ⟨rfl, rfl⟩
        have := hM.joints z hz (by unfold World.typeOf; rw [fg, g4.body]; exact hs) j (by rw [fg, hjo.2]; exact hj)
        rw [fg, hjo.1] at this; exact this
      · have hs' : w.typeOf z = .static := by rw [← ht3]; exact hs
        obtain ⟨r1, r2, r3, r4⟩ := hrest z (hok z hz).1 hs'
        obtain ⟨-, k2, -, k4⟩ := (hcons z (hok z hz).1).heavy (by rw [hs']; decide)
        rw [core_eq (hcore z)]
        exact ⟨r1, r2, k2, k4, r3, r4⟩
      · have hcz := hcons z (hok z hz).1
        rw [posed_iff, core_eq (hcore z)]
        exact ⟨hcz.rotation, hcz.center⟩

    · rw [← fcst] at hso hmix
      unfold CState.mix at hmix
      simp only [Prod.mk.injEq] at hmix
      obtain ⟨x1, x2, x3, x4⟩ := hmix
      have hpts : (w3.cst c).manifold.points.length = 1 := by rw [← hso.length]; exact hB.onePoint
      have hd1 : (1 : F) + dt * (w.phys z).linearDamping ≥ 1 := by
        have := mul_nonneg hdt.le hB.damped
        linarith
      refine ⟨hB.pair, ?_, ?_, ?_, x4 ▸ hB.slides, x1 ▸ hB.rough, ?_, ?_, wm0, (1 / (1 + dt * (w.phys z).linearDamping)) * (dt * k), (hwme wm0).mpr t1, t2, t3, ?_, ?_, ?_, ?_⟩
      · have := hB.mobile
        rw [← ht3] at this
        unfold World.typeOf at this
        rw [this]; decide
      · rw [← ht3 o |>.trans hB.fixed]; rfl
      · match hp : (w3.cst c).manifold.points, hpts with
        | [q], _ => exact ⟨q, rfl, hslick q (by rw [hp]; simp)⟩
      · have := hB.apart
        rw [show (w3.phys x).xf = (w.phys x).xf by rw [core_eq (hcore x)], show (w3.phys y).xf = (w.phys y).xf by rw [core_eq (hcore y)]]
        intro ht q hq
        have hl : q.localPoint ∈ (w'.cst c).manifold.points.map (·.localPoint) := by rw [hso.points]; exact List.mem_map_of_mem hq
        obtain ⟨q', hq', he⟩ := List.mem_map.mp hl
        have := this (hso.type.trans ht) q' hq'
        rw [hso.point, he] at this
        exact this
      · show (drivenVel dt w3 z).w = 0
        rw [hdr]
        unfold drivenVel
        rw [if_pos hB.mobile]
        show freeW dt (w.phys z) = 0
        unfold freeW
        rw [hR.unturned, hB.torque]; simp
      · rw [hcz]; exact t4
      · have : (0 : F) < 1 + dt * (w.phys z).linearDamping := by linarith
        exact mul_nonneg (by positivity) (mul_nonneg hdt.le t5)
      · rcases t7 with t7 | t7
        · left
          rw [← x3]
          refine le_trans ?_ t7
          have h1 : 1 / (1 + dt * (w.phys z).linearDamping) ≤ 1 := by
            rw [div_le_one (by linarith)]; exact hd1
          have h2 : 0 ≤ dt * k := mul_nonneg hdt.le t5
          calc _ ≤ 1 * (dt * k) := mul_le_mul_of_nonneg_right h1 h2
            _ = _ := one_mul _
        · right; rw [← x2]; exact t7
      · show (drivenVel dt w3 y).v = (drivenVel dt w3 x).v + _
        rw [hdr, hdr]
        have hz : (drivenVel dt w z).v = (1 / (1 + dt * (w.phys z).linearDamping)) * (dt * (k * (if z = x then wm0.normal else -wm0.normal))) := by
          unfold drivenVel
          rw [if_pos hB.mobile]
          show freeV dt w.gravity (w.phys z) = _
          unfold freeV
          rw [← t6, hR.still]
          unfold pull
          ext <;> simp
        have ho : (drivenVel dt w o).v = ⟨0, 0⟩ := by
          unfold drivenVel
          rw [if_neg (by rw [hB.fixed]; decide), r1]
        rcases hB.pair with ⟨h1, h2⟩ | ⟨h1, h2⟩
        · rw [← h2, ho, ← h1, hz, if_pos h1]
          ext <;> simp <;> ring
        · have hne : z ≠ x := by
            intro h
            have := hB.mobile
            rw [h, ← h2, hB.fixed] at this; cases this
          rw [← h2, ho, ← h1, hz, if_neg hne]
          ext <;> simp <;> ring) (by rw [hcz]; exact hR.still) (by rw [hcz]; exact hR.unturned)
  obtain ⟨⟨j1, j2, j3, j4, j5⟩, j6⟩ := key
  obtain ⟨i1, i2, i3, i4⟩ := fin z (hok z hzz).1
  rw [hcz] at j3 j4 j5
  exact ⟨⟨i1.trans j1, i2.trans j2, by rw [fcst]; exact j6⟩, by rw [i3]; exact j3, by rw [i3]; exact j4, i4.trans j5⟩

end
end B2
