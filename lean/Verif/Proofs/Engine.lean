import Verif.Proofs.EngineSolve
import Verif.Spec.Engine

/-! # The solvers of a world: they do not panic, and what they leave alone -/
set_option linter.unusedSectionVars false
namespace B2
open Spec
section
variable {F : Type} [Field F] [LinearOrder F] [IsStrictOrderedRing F] [Elem F]
variable {w : World F} {isl : Island} {step : TimeStep F} {E : Engine F}

/-! ## What the solvers read of the contacts and joints of an island -/

theorem Spec.Fitted.place (hf : Fitted w isl) {b : Nat} (hb : b ∈ isl.bodies) : isl.bodies[(w.phys b).islandIndex.toNat]? = some b := by
  obtain ⟨i, hi, rfl⟩ := List.getElem_of_mem hb
  have h : isl.bodies[i]? = some isl.bodies[i] := List.getElem?_eq_getElem hi
  rw [hf.index i _ h]
  exact h

theorem Spec.Fitted.place_lt (hf : Fitted w isl) {b : Nat} (hb : b ∈ isl.bodies) : (w.phys b).islandIndex.toNat < isl.bodies.length :=
  (List.getElem?_eq_some_iff.1 (hf.place hb)).1

theorem Spec.Fitted.same (hf : Fitted w isl) {i b c : Nat} (hi : isl.bodies[i]? = some b) (hc : c ∈ isl.bodies) (h : (w.phys c).islandIndex.toNat = i) : c = b := by
  have := hf.place hc
  rw [h, hi] at this
  exact (Option.some.inj this).symm

/-- What the contact solver reads of a contact of the island. -/
structure Reads (w : World F) (isl : Island) (c : Nat) (x : ContactIn F) (bA bB : Nat) : Prop where
  memA : bA ∈ isl.bodies
  memB : bB ∈ isl.bodies
  ne : bA ≠ bB
  bodyA : (w.g.fixtures (w.g.contacts c).fA).body = some bA
  bodyB : (w.g.fixtures (w.g.contacts c).fB).body = some bB
  indexA : x.indexA = (w.phys bA).islandIndex.toNat
  indexB : x.indexB = (w.phys bB).islandIndex.toNat
  massA : x.invMassA = (w.phys bA).invMass
  massB : x.invMassB = (w.phys bB).invMass
  inertiaA : x.invIA = (w.phys bA).invI
  inertiaB : x.invIB = (w.phys bB).invI
  manifold : x.manifold = (w.cst c).manifold

theorem contactIn_total (hf : Fitted w isl) {c : Nat} (hc : c ∈ isl.contacts) : ∃ x bA bB, w.contactIn c = some x ∧ Reads w isl c x bA bB := by
  obtain ⟨bA, hA, bB, hB, hne, eA, eB⟩ := hf.contacts c hc
  have e : w.contactIn c = some { manifold := (w.cst c).manifold, friction := (w.cst c).friction, restitution := (w.cst c).restitution
                                  threshold := (w.cst c).restitutionThreshold, tangentSpeed := (w.cst c).tangentSpeed
                                  radiusA := (w.g.fixtures (w.g.contacts c).fA).shape.radius
                                  radiusB := (w.g.fixtures (w.g.contacts c).fB).shape.radius
                                  indexA := (w.phys bA).islandIndex.toNat, indexB := (w.phys bB).islandIndex.toNat
                                  invMassA := (w.phys bA).invMass, invMassB := (w.phys bB).invMass
                                  invIA := (w.phys bA).invI, invIB := (w.phys bB).invI
                                  localCenterA := (w.phys bA).sweep.localCenter, localCenterB := (w.phys bB).sweep.localCenter } := by
    unfold World.contactIn World.bodyOf
    dsimp only
    rw [eA, eB]
    rfl
  exact ⟨_, bA, bB, e, hA, hB, hne, eA, eB, rfl, rfl, rfl, rfl, rfl, rfl, rfl⟩

theorem contactsIn_total (hf : Fitted w isl) : ∃ cs, isl.contacts.mapM w.contactIn = some cs :=
  mapM_total fun _ hc => by
    obtain ⟨x, _, _, h, _⟩ := contactIn_total hf hc
    exact ⟨x, h⟩

theorem contactsIn_of {cs : List (ContactIn F)} (h : isl.contacts.mapM w.contactIn = some cs) {x : ContactIn F} (hx : x ∈ cs) :
    ∃ c ∈ isl.contacts, w.contactIn c = some x := by
  obtain ⟨i, hi, rfl⟩ := List.getElem_of_mem hx
  have hs := mapM_forall2 h
  have hlen : i < isl.contacts.length := by rw [hs.length_eq]; exact hi
  have := (List.forall₂_iff_get.1 hs).2 i hlen hi
  exact ⟨_, List.getElem_mem hlen, this⟩

theorem contactsIn_each (hf : Fitted w isl) {cs : List (ContactIn F)} (h : isl.contacts.mapM w.contactIn = some cs) {x : ContactIn F} (hx : x ∈ cs) :
    ∃ c ∈ isl.contacts, ∃ bA bB, Reads w isl c x bA bB := by
  obtain ⟨c, hc, h1⟩ := contactsIn_of h hx
  obtain ⟨y, bA, bB, h2, h3⟩ := contactIn_total hf hc
  rw [h1] at h2
  cases h2
  exact ⟨c, hc, bA, bB, h3⟩

/-- The solvers have nothing to change about body `b`: each contact or joint of the island that has it finds it of infinite mass and
inertia. -/
structure Spared (E : Engine F) (w : World F) (isl : Island) (b : Nat) : Prop where
  contacts : ∀ c ∈ isl.contacts, OfBody w c b → (w.phys b).invMass = 0 ∧ (w.phys b).invI = 0
  joints : ∀ j ∈ isl.joints, b ∈ (E.joint w j).touched → (w.phys b).invMass = 0 ∧ (w.phys b).invI = 0
  mouse : ∀ j ∈ isl.joints, (E.joint w j).isMouse = true → b ∉ (E.joint w j).touched

theorem spared_heavy (hm : MouseHasMass E) {b : Nat} (h1 : (w.phys b).invMass = 0) (h2 : (w.phys b).invI = 0) : Spared E w isl b := by
  refine ⟨fun _ _ _ => ⟨h1, h2⟩, fun _ _ _ => ⟨h1, h2⟩, fun j _ hj hb => ?_⟩
  cases e : E.joint w j with
  | mouse m =>
    rw [e] at hb
    simp only [Joint.touched, List.mem_singleton] at hb
    subst hb
    exact (hm w j m e).elim (· h1) (· h2)
  | _ => rw [e] at hj; cases hj

theorem spared_free (hs : Seated E) {b : Nat} (h1 : ∀ c ∈ isl.contacts, ¬ OfBody w c b)
    (h2 : ∀ j ∈ isl.joints, (w.g.joints j).a ≠ b ∧ (w.g.joints j).b ≠ b) : Spared E w isl b := by
  have : ∀ j ∈ isl.joints, b ∉ (E.joint w j).touched := fun j hj hb => by
    rcases hs w j b hb with h | h
    · exact (h2 j hj).1 h.symm
    · exact (h2 j hj).2 h.symm
  exact ⟨fun c hc h => absurd h (h1 c hc), fun j hj h => absurd h (this j hj), fun j hj _ => this j hj⟩

/-- What the joints of the island touch. -/
def Touches (w : World F) (isl : Island) (b : Nat) (t : List Nat) : Prop :=
  ∀ c ∈ t, c ∈ isl.bodies ∧ (c = b → (w.phys b).invMass = 0 ∧ (w.phys b).invI = 0)

theorem touched_mem (hs : Seated E) (hf : Fitted w isl) {j : Nat} (hj : j ∈ isl.joints) {c : Nat} (hc : c ∈ (E.joint w j).touched) : c ∈ isl.bodies := by
  rcases hs w j c hc with h | h <;> rw [h]
  · exact (hf.joints j hj).1
  · exact (hf.joints j hj).2

theorem touches_of (hs : Seated E) (hf : Fitted w isl) {b : Nat} (h : Spared E w isl b) :
    ∀ j ∈ isl.joints.map (E.joint w), Touches w isl b j.touched := by
  intro j hj c hc
  obtain ⟨k, hk, rfl⟩ := List.mem_map.1 hj
  exact ⟨touched_mem hs hf hk hc, fun e => h.joints k hk (e ▸ hc)⟩

/-! ## What is left alone -/

theorem velocity_spared (hs : Seated E) (hf : Fitted w isl) {i b : Nat} (hib : isl.bodies[i]? = some b) (h : Spared E w isl b)
    {states : List (BState F)} {r : List (Joint F) × Arr (Vel F) × List (Manifold F)} (e : E.velocity w isl step states = some r) :
    (∀ j ∈ r.1, Armed' w.jbody (World.positionsOf states) (Touches w isl b) j) ∧ r.2.1.at' i = (World.velocitiesOf states).at' i := by
  unfold Engine.velocity at e
  obtain ⟨cs, e1, e2⟩ := Option.bind_eq_some_iff.1 e
  refine islandVelocity_rel (R := fun v v' => v'.at' i = v.at' i) (fun _ => rfl) (fun _ _ _ h h' => h'.trans h) (touches_of hs hf h)
    (fun j hj v j' v' hv => ?_) (fun t v v' ht hv => ?_) (fun x hx vc hr v v' hk => ?_) e2
  · obtain ⟨_, ho, hl, ha, _⟩ := Joint.initVel_pushed hv
    by_cases hm : j.isMouse = true
    · refine ho i fun f hf' => ?_
      obtain ⟨c, hc, rfl⟩ := List.mem_map.1 hf'
      intro hi
      obtain ⟨k, hk, rfl⟩ := List.mem_map.1 hj
      have := hf.same hib (touched_mem hs hf hk hc) hi
      exact h.mouse k hk hm (this ▸ hc)
    · rw [Bool.not_eq_true] at hm
      refine Vel.ext (hl i fun f hf' hi => ?_) (ha hm i fun f hf' hi => ?_)
      all_goals
        obtain ⟨c, hc, rfl⟩ := List.mem_map.1 hf'
        obtain ⟨h1, h2⟩ := touches_of hs hf h j hj c hc
        have hcb := hf.same hib h1 hi
        have := h2 hcb
        subst hcb
        first | exact this.1 | exact this.2
  · refine Vel.ext (hv.linear i fun f hf' hi => ?_) (hv.angular i fun f hf' hi => ?_)
    all_goals
      obtain ⟨c, hc, rfl⟩ := List.mem_map.1 hf'
      obtain ⟨h1, h2⟩ := ht c hc
      have hcb := hf.same hib h1 hi
      have := h2 hcb
      subst hcb
      first | exact this.1 | exact this.2
  · exact kick_spared hf hib h e1 hx hr hk
where
  kick_spared {w : World F} {isl : Island} {E : Engine F} (hf : Fitted w isl) {i b : Nat} (hib : isl.bodies[i]? = some b) (h : Spared E w isl b)
      {cs : List (ContactIn F)} (e1 : isl.contacts.mapM w.contactIn = some cs) {x : ContactIn F} (hx : x ∈ cs) {block : Bool} {pos : Arr (Pos F)}
      {vel : Arr (Vel F)} {vc : VConstraint F} (hr : Ready block x pos vel vc) {v v' : Arr (Vel F)} (hk : Kick vc v v') : v'.at' i = v.at' i := by
    obtain ⟨c, hc, bA, bB, rd⟩ := contactsIn_each hf e1 hx
    have hne : x.indexA ≠ x.indexB := by
      rw [rd.indexA, rd.indexB]
      intro he
      exact rd.ne (hf.same (hf.place rd.memB) rd.memA he)
    refine kick_fixed (fun hi => ?_) (fun hi => ?_) (by rw [hr.indexA, hr.indexB]; exact hne) hk
    · rw [hr.indexA, rd.indexA] at hi
      have hb := hf.same hib rd.memA hi
      have := h.contacts c hc (.inl (hb ▸ rd.bodyA))
      subst hb
      rw [hr.massA, hr.inertiaA, rd.massA, rd.inertiaA]; exact this
    · rw [hr.indexB, rd.indexB] at hi
      have hb := hf.same hib rd.memB hi
      have := h.contacts c hc (.inr (hb ▸ rd.bodyB))
      subst hb
      rw [hr.massB, hr.inertiaB, rd.massB, rd.inertiaB]; exact this

/-- A position constraint of the island moves no body that the solvers have nothing to change about. -/
theorem shift_spared (hf : Fitted w isl) {i b : Nat} (hib : isl.bodies[i]? = some b) (h : Spared E w isl b)
    {cs : List (ContactIn F)} (e1 : isl.contacts.mapM w.contactIn = some cs) {warm : Bool} {dtRatio : F} {pcs : List (VConstraint F × PConstraint F)}
    (e2 : cs.mapM (newConstraint warm dtRatio) = some pcs) {pc : PConstraint F} (hpc : pc ∈ pcs.map (·.2)) {ms : InvMasses F}
    (hA : ms.mA = pc.invMassA ∧ ms.iA = pc.invIA ∨ ms.mA = 0 ∧ ms.iA = 0) (hB : ms.mB = pc.invMassB ∧ ms.iB = pc.invIB ∨ ms.mB = 0 ∧ ms.iB = 0)
    {p : Arr (Pos F)} {s' : TwoPos F} {m : F} (hs : Shift ms ⟨p.at' pc.indexA, p.at' pc.indexB, m⟩ s') :
    (upd (upd p.at' pc.indexA s'.a) pc.indexB s'.b) i = p.at' i := by
  obtain ⟨x, hx, i1, i2, m1, m2, j1, j2, -⟩ := newConstraints_each e2 hpc
  obtain ⟨c, hc, bA, bB, rd⟩ := contactsIn_each hf e1 hx
  have hne : pc.indexA ≠ pc.indexB := by
    rw [i1, i2, rd.indexA, rd.indexB]
    intro he
    exact rd.ne (hf.same (hf.place rd.memB) rd.memA he)
  have zA : pc.indexA = i → ms.mA = 0 ∧ ms.iA = 0 := by
    intro hi
    rw [i1, rd.indexA] at hi
    have hb := hf.same hib rd.memA hi
    have := h.contacts c hc (.inl (hb ▸ rd.bodyA))
    rcases hA with hA | hA
    · rw [hA.1, hA.2, m1, j1, rd.massA, rd.inertiaA, hb]; exact this
    · exact hA
  have zB : pc.indexB = i → ms.mB = 0 ∧ ms.iB = 0 := by
    intro hi
    rw [i2, rd.indexB] at hi
    have hb := hf.same hib rd.memB hi
    have := h.contacts c hc (.inr (hb ▸ rd.bodyB))
    rcases hB with hB | hB
    · rw [hB.1, hB.2, m2, j2, rd.massB, rd.inertiaB, hb]; exact this
    · exact hB
  exact Pos.ext (shift_fixed i (fun e => (zA e).1) (fun e => (zB e).1) hne hs)
    (shift_fixed_angle i (fun e => (zA e).2) (fun e => (zB e).2) hne hs)

theorem position_spared (hs : Seated E) (hf : Fitted w isl) {i b : Nat} (hib : isl.bodies[i]? = some b) (h : Spared E w isl b)
    {states : List (BState F)} {r : Arr (Pos F) × Bool} (e : E.position w isl step states = some r) :
    r.1.at' i = (World.positionsOf states).at' i := by
  unfold Engine.position at e
  simp only [Option.bind_eq_bind, Option.bind_eq_some_iff] at e
  obtain ⟨q, e1, cs, e2, pcs, e3, e4⟩ := e
  obtain ⟨a1, -⟩ := velocity_spared hs hf hib h e1
  refine islandPositions_rel (R := fun v v' => v'.at' i = v.at' i) (fun _ => rfl) (fun _ _ _ h h' => h'.trans h) (T := Touches w isl b)
    (fun t v v' ht hv => ?_) (fun pc hpc p s' m _ _ hsh => ?_) a1 e4
  · refine Pos.ext (hv.linear i fun f hf' hi => ?_) (hv.angular i fun f hf' hi => ?_)
    all_goals
      obtain ⟨c, hc, rfl⟩ := List.mem_map.1 hf'
      obtain ⟨h1, h2⟩ := ht c hc
      have hcb := hf.same hib h1 hi
      have := h2 hcb
      subst hcb
      first | exact this.1 | exact this.2
  · exact shift_spared hf hib h e2 e3 hpc (.inl ⟨rfl, rfl⟩) (.inl ⟨rfl, rfl⟩) hsh

theorem toiPosition_spared (hf : Fitted w isl) {i b : Nat} (hib : isl.bodies[i]? = some b) (h : Spared E w isl b)
    {r : Arr (Pos F)} (e : E.toiPosition w isl step = some r) : r.at' i = (World.positionsOf (Engine.toiBegin w isl)).at' i := by
  unfold Engine.toiPosition at e
  simp only [Option.bind_eq_bind, Option.bind_eq_some_iff] at e
  obtain ⟨cs, e2, pcs, e3, e4⟩ := e
  refine toiIterate_rel (R := fun v v' => v'.at' i = v.at' i) (fun _ => rfl) (fun _ _ _ h h' => h'.trans h)
    (fun pc hpc p s' m _ _ hsh => ?_) e4
  refine shift_spared hf hib h e2 e3 hpc ?_ ?_ hsh
  · simp only [toiMasses]
    split
    · exact .inl ⟨rfl, rfl⟩
    · exact .inr ⟨rfl, rfl⟩
  · simp only [toiMasses]
    split
    · exact .inl ⟨rfl, rfl⟩
    · exact .inr ⟨rfl, rfl⟩

theorem toiVelocity_spared (hf : Fitted w isl) {i b : Nat} (hib : isl.bodies[i]? = some b) (h : Spared E w isl b)
    {states : List (BState F)} {r : Arr (Vel F)} (e : E.toiVelocity w isl step states = some r) :
    r.at' i = (World.velocitiesOf states).at' i := by
  unfold Engine.toiVelocity at e
  simp only [Option.bind_eq_bind, Option.bind_eq_some_iff] at e
  obtain ⟨cs, e1, vcs, e2, q, e3, e4⟩ := e
  simp only [Option.pure_def, Option.some.injEq] at e4
  subst e4
  refine (iterate_rel (R := fun v v' => v'.at' i = v.at' i) (fun _ => rfl) (fun _ _ _ h h' => h'.trans h) (fun _ _ => rfl)
    (fun vc hv v v' hk => ?_) e3).2
  obtain ⟨x, hx, hr⟩ := setUp_each e2 hv
  exact velocity_spared.kick_spared hf hib h e1 hx hr hk

theorem velocitiesOf_at {states : List (BState F)} {i : Nat} {s : BState F} (h : states[i]? = some s) : (World.velocitiesOf states).at' i = ⟨s.v, s.w⟩ := by
  simp only [World.velocitiesOf, h]

theorem positionsOf_at {states : List (BState F)} {i : Nat} {s : BState F} (h : states[i]? = some s) : (World.positionsOf states).at' i = ⟨s.c, s.a⟩ := by
  simp only [World.positionsOf, h]

theorem env_velocity (hs : Seated E) {states : List (BState F)} {i b : Nat} {s : BState F} (hf : Fitted w isl) (hib : isl.bodies[i]? = some b)
    (h : states[i]? = some s) (hb : Spared E w isl b) : E.env.solveVel w isl step states i = (s.v, s.w) := by
  simp only [Engine.env]
  cases e : E.velocity w isl step states with
  | none => simp only [velocitiesOf_at h]
  | some r => simp only [(velocity_spared hs hf hib hb e).2, velocitiesOf_at h]

theorem env_position (hs : Seated E) {states : List (BState F)} {i b : Nat} {s : BState F} (hf : Fitted w isl) (hib : isl.bodies[i]? = some b)
    (h : states[i]? = some s) (hb : Spared E w isl b) : (E.env.solvePos w isl step states).1 i = (s.c, s.a) := by
  simp only [Engine.env]
  cases e : E.position w isl step states with
  | none => simp only [positionsOf_at h]
  | some r => simp only [position_spared hs hf hib hb e, positionsOf_at h]

/-- The solvers do not move a body of infinite mass and inertia and do not change its velocity. -/
theorem env_heavyStay (hs : Seated E) (hm : MouseHasMass E) : HeavyStay E.env where
  velocity w isl step states i b s hf hib h h1 h2 := env_velocity hs hf hib h (spared_heavy hm h1 h2)
  position w isl step states i b s hf hib h h1 h2 := env_position hs hf hib h (spared_heavy hm h1 h2)
  toiVelocity w isl step states i b s hf hib h h1 h2 := by
    simp only [Engine.env]
    cases e : E.toiVelocity w isl step states with
    | none => simp only [velocitiesOf_at h]
    | some r => simp only [toiVelocity_spared hf hib (spared_heavy hm h1 h2) e, velocitiesOf_at h]
  toiPosition w isl step i b hf hib h1 h2 := by
    have h : (Engine.toiBegin w isl)[i]? = some ⟨(w.phys b).sweep.c, (w.phys b).sweep.a, (w.phys b).v, (w.phys b).w⟩ := by
      simp only [Engine.toiBegin, List.getElem?_map, hib, Option.map_some]
    simp only [Engine.env]
    cases e : E.toiPosition w isl step with
    | none => simp only [positionsOf_at h]
    | some r => simp only [toiPosition_spared hf hib (spared_heavy hm h1 h2) e, positionsOf_at h]

/-- The solvers change nothing about a body that no contact and no joint of the island involves. -/
theorem env_freeStay (hs : Seated E) : FreeStay E.env where
  velocity w isl step states i b s hf hib h h1 h2 := env_velocity hs hf hib h (spared_free hs h1 h2)
  position w isl step states i b s hf hib h h1 h2 := env_position hs hf hib h (spared_free hs h1 h2)

/-! ## The solvers do not panic -/

theorem pointed_lengths (hp : w.pointed isl = true) {c : Nat} (hc : c ∈ isl.contacts) :
    (w.cst c).manifold.points.length = 1 ∨ (w.cst c).manifold.points.length = 2 := by
  unfold World.pointed at hp
  have := of_decide_eq_true (List.all_eq_true.1 hp c hc)
  omega

theorem velocity_total (hs : Seated E) (hf : Fitted w isl) (hp : w.pointed isl = true) (hq : ∀ c ∈ isl.contacts, Pushing (w.cst c).manifold)
    (hd : 0 ≤ step.dtRatio) {states : List (BState F)} (hl : states.length = isl.bodies.length) : ∃ r, E.velocity w isl step states = some r := by
  obtain ⟨cs, e⟩ := contactsIn_total hf
  unfold Engine.velocity
  rw [e]
  refine islandVelocity_total rfl hd (fun x hx => ?_) (fun j hj b hb => ?_)
  · obtain ⟨c, hc, bA, bB, rd⟩ := contactsIn_each hf e hx
    rw [rd.manifold, rd.indexA, rd.indexB]
    show _ ∧ _ < states.length ∧ _ < states.length ∧ _
    rw [hl]
    exact ⟨pointed_lengths hp hc, hf.place_lt rd.memA, hf.place_lt rd.memB, hq c hc⟩
  · obtain ⟨k, hk, rfl⟩ := List.mem_map.1 hj
    show _ < states.length
    rw [hl]
    exact hf.place_lt (touched_mem hs hf hk hb)

theorem pcs_lt (hf : Fitted w isl) {cs : List (ContactIn F)} (e1 : isl.contacts.mapM w.contactIn = some cs) {warm : Bool} {dtRatio : F}
    {pcs : List (VConstraint F × PConstraint F)} (e2 : cs.mapM (newConstraint warm dtRatio) = some pcs) {n : Nat} (hn : n = isl.bodies.length) :
    ∀ pc ∈ pcs.map (·.2), pc.indexA < n ∧ pc.indexB < n ∧ pc.pointCount ≤ 2 := by
  intro pc hpc
  obtain ⟨x, hx, i1, i2, -, -, -, -, hc⟩ := newConstraints_each e2 hpc
  obtain ⟨c, -, bA, bB, rd⟩ := contactsIn_each hf e1 hx
  rw [i1, i2, rd.indexA, rd.indexB, hn]
  exact ⟨hf.place_lt rd.memA, hf.place_lt rd.memB, hc⟩

theorem news_total (hf : Fitted w isl) (hp : w.pointed isl = true) {cs : List (ContactIn F)} (e : isl.contacts.mapM w.contactIn = some cs)
    (warm : Bool) (dtRatio : F) : ∃ pcs, cs.mapM (newConstraint warm dtRatio) = some pcs :=
  newConstraints_total fun x hx => by
    obtain ⟨c, hc, bA, bB, rd⟩ := contactsIn_each hf e hx
    rw [rd.manifold]
    exact pointed_lengths hp hc

theorem position_total (hs : Seated E) (hf : Fitted w isl) (hp : w.pointed isl = true) (hq : ∀ c ∈ isl.contacts, Pushing (w.cst c).manifold)
    (hd : 0 ≤ step.dtRatio) {states : List (BState F)} (hl : states.length = isl.bodies.length) : ∃ r, E.position w isl step states = some r := by
  obtain ⟨r, e1⟩ := velocity_total (step := step) hs hf hp hq hd (states := Engine.begin w isl step) (by simp [Engine.begin])
  obtain ⟨cs, e2⟩ := contactsIn_total hf
  obtain ⟨pcs, e3⟩ := news_total hf hp e2 step.warmStarting step.dtRatio
  simp only [Engine.position, e1, e2, e3, Option.bind_eq_bind, Option.bind_some]
  have e1' := e1
  unfold Engine.velocity at e1'
  rw [e2] at e1'
  have ha := (islandVelocity_rel (R := fun _ _ => True) (fun _ => trivial) (fun _ _ _ _ _ => trivial)
    (T := fun t => ∀ b ∈ t, (w.jbody b).index < isl.bodies.length) (fun j hj b hb => by
      obtain ⟨k, hk, rfl⟩ := List.mem_map.1 hj
      exact hf.place_lt (touched_mem hs hf hk hb)) (fun _ _ _ _ _ _ => trivial) (fun _ _ _ _ _ => trivial) (fun _ _ _ _ _ _ _ => trivial) e1').1
  exact islandPositions_total (pcs_lt hf e2 e3 rfl) ha _ _ hl

theorem toiPosition_total (hf : Fitted w isl) (hp : w.pointed isl = true) : ∃ r, E.toiPosition w isl step = some r := by
  obtain ⟨cs, e2⟩ := contactsIn_total hf
  obtain ⟨pcs, e3⟩ := news_total hf hp e2 step.warmStarting step.dtRatio
  simp only [Engine.toiPosition, e2, e3, Option.bind_eq_bind, Option.bind_some]
  obtain ⟨r, h, -⟩ := toiIterate_total (pcs_lt hf e2 e3 rfl) step.positionIterations (World.positionsOf (Engine.toiBegin w isl))
    (by simp [World.positionsOf, Engine.toiBegin])
  exact ⟨r, h⟩

/-- Without warm starting the constraints start without impulses. -/
theorem setUp_cold {dtRatio : F} {block : Bool} {pos : Arr (Pos F)} {vel : Arr (Vel F)} {contacts : List (ContactIn F)}
    {cs : List (VConstraint F × PConstraint F)} (hs : setUp false dtRatio block pos vel contacts = some cs) :
    ∀ vc ∈ cs.map (·.1), Solvable vel.len vc := by
  have := setUp_spec hs
  intro vc hvc
  obtain ⟨i, hi⟩ := List.mem_iff_getElem?.1 hvc
  obtain ⟨hi', hvc'⟩ := List.getElem?_eq_some_iff.1 hi
  have hlen : i < contacts.length := by rw [this.length_eq]; exact hi'
  obtain ⟨hr, q, hq, hq1, _, hq2⟩ := (List.forall₂_iff_get.1 this).2 i hlen hi'
  simp only [List.get_eq_getElem] at hr hq hq1 hq2
  rw [hvc'] at hr hq1 hq2
  obtain ⟨hA, hB⟩ := setUp_lt hs _ (List.getElem_mem hlen)
  refine ⟨by rw [hr.indexA]; exact hA, by rw [hr.indexB]; exact hB, ?_, ?_, ?_⟩
  · obtain ⟨wm, _, _, _, hc⟩ := hr.wm
    rcases hc with hc | hc
    · exact .inl hc
    · exact .inr hc.1
  · rw [hq1]; exact le_refl _
  · intro hc
    obtain ⟨q2, hq2m, hq2e, _⟩ := hq2 hc
    rw [hq2e]; exact le_refl _

theorem toiVelocity_total (hf : Fitted w isl) (hp : w.pointed isl = true) (hw : step.warmStarting = false) {states : List (BState F)}
    (hl : states.length = isl.bodies.length) : ∃ r, E.toiVelocity w isl step states = some r := by
  obtain ⟨cs, e1⟩ := contactsIn_total hf
  obtain ⟨vcs, e2⟩ := setUp_total (warm := step.warmStarting) (dtRatio := step.dtRatio) (block := E.block) (pos := World.positionsOf states)
    (vel := World.velocitiesOf states) (contacts := cs) rfl (fun x hx => by
      obtain ⟨c, hc, bA, bB, rd⟩ := contactsIn_each hf e1 hx
      rw [rd.manifold, rd.indexA, rd.indexB]
      show _ ∧ _ < states.length ∧ _ < states.length
      rw [hl]
      exact ⟨pointed_lengths hp hc, hf.place_lt rd.memA, hf.place_lt rd.memB⟩)
  have hsv := setUp_cold (by rw [hw] at e2; exact e2)
  obtain ⟨l', v', e3, -, -⟩ := iterate_total E.block (joints := fun _ v => v) (fun _ _ => rfl) step.velocityIterations 0 (vcs.map (·.1))
    (World.velocitiesOf states) hsv
  exact ⟨v', by simp only [Engine.toiVelocity, e1, e2, e3, Option.bind_eq_bind, Option.bind_some]; rfl⟩

/-- The constraint solvers run. -/
theorem env_solversRun (hs : Seated E) : SolversRun E.env where
  solve w isl step hf hp hq hd := by
    obtain ⟨r, e1⟩ := velocity_total (step := step) hs hf hp hq hd (states := Engine.begin w isl step) (by simp [Engine.begin])
    obtain ⟨q, e2⟩ := position_total (step := step) hs hf hp hq hd (states := Engine.moved w isl step r.2.1)
      (by simp [Engine.begin, Engine.moved, World.setVelocities])
    simp only [Engine.env, e1, e2, Option.bind_some, Option.isSome_some]
  toi w isl step hf hp _ hw := by
    obtain ⟨r, e1⟩ := toiPosition_total (E := E) (step := step) hf hp
    obtain ⟨q, e2⟩ := toiVelocity_total (E := E) (step := step) hf hp hw (states := Engine.leapt w isl r)
      (by simp [Engine.toiBegin, Engine.leapt, World.setPositions])
    simp only [Engine.env, e1, e2, Option.bind_some, Option.isSome_some]
  impulses w isl step hq hd k x hx := by
    simp only [Engine.env] at hx
    cases e : E.velocity w isl step (Engine.begin w isl step) with
    | none => rw [e] at hx; cases hx
    | some r =>
      rw [e] at hx
      simp only at hx
      cases hm : r.2.2[k]? with
      | none => rw [hm] at hx; cases hx
      | some m =>
        rw [hm] at hx
        obtain ⟨p, hp, rfl⟩ := List.mem_map.1 hx
        unfold Engine.velocity at e
        obtain ⟨cs, e1, e2⟩ := Option.bind_eq_some_iff.1 e
        refine islandVelocity_push hd (fun y hy => ?_) e2 m (List.mem_of_getElem? hm) p hp
        obtain ⟨c, hc, hin⟩ := contactsIn_of e1 hy
        have : y.manifold = (w.cst c).manifold := by
          unfold World.contactIn at hin
          simp only [Option.bind_eq_bind, Option.bind_eq_some_iff] at hin
          obtain ⟨bA, _, bB, _, hin⟩ := hin
          simp only [Option.pure_def, Option.some.injEq] at hin
          rw [← hin]
        rw [this]; exact hq c hc

end
end B2
