import Verif.Proofs.Engine
import Verif.Proofs.JointEach

/-! # The velocity solvers and weighted momentum -/
set_option linter.unusedSectionVars false
namespace B2
open Spec
section
variable {F : Type} [Field F] [LinearOrder F] [IsStrictOrderedRing F]

theorem kick_balance {vc : VConstraint F} {vel vel' : Arr (Vel F)} {M : Nat → F} (hne : vc.indexA ≠ vc.indexB)
    (hM : M vc.indexA * vc.invMassA = M vc.indexB * vc.invMassB) (h : Kick vc vel vel') : momentum M vel' = momentum M vel := by
  obtain ⟨h1, h2, P1, P2, _, _, rfl⟩ := h
  unfold momentum
  simp only
  rw [sum_upd2 vel.len (fun i (v : Vel F) => M i * v.v.x) vel.at' _ _ h1 h2 hne,
    sum_upd2 vel.len (fun i (v : Vel F) => M i * v.v.y) vel.at' _ _ h1 h2 hne]
  simp only [VConstraint.kick, VConstraint.push, push, Vec2.sub_x, Vec2.sub_y, Vec2.add_x, Vec2.add_y, Vec2.smul_x,
    Vec2.smul_y, Vec2.mk.injEq]
  constructor
  · linear_combination (-(P1.x + P2.x)) * hM
  · linear_combination (-(P1.y + P2.y)) * hM

theorem JKick.balance {v v' : View F} {vel vel' : Arr (Vel F)} {M : Nat → F} (h : JKick v v' vel vel') (hne : v.frame.a.index ≠ v.frame.b.index)
    (hM : M v.frame.a.index * v.frame.a.invMass = M v.frame.b.index * v.frame.b.invMass) :
    B2.momentum M vel' = B2.momentum M vel := by
  have h1 := h.indexA
  have h2 := h.indexB
  rw [h.eq]
  unfold B2.momentum
  simp only
  rw [sum_upd2 vel.len (fun i (v : Vel F) => M i * v.v.x) vel.at' _ _ h1 h2 hne,
    sum_upd2 vel.len (fun i (v : Vel F) => M i * v.v.y) vel.at' _ _ h1 h2 hne]
  simp only [PairFrame.kick, Vec2.sub_x, Vec2.sub_y, Vec2.add_x, Vec2.add_y, Vec2.smul_x, Vec2.smul_y, Vec2.mk.injEq]
  constructor
  · linear_combination (-(v'.p.x - v.p.x)) * hM
  · linear_combination (-(v'.p.y - v.p.y)) * hM

theorem momentum_same {M : Nat → F} {vel vel' : Arr (Vel F)} (hl : vel'.len = vel.len) (h : ∀ i, M i ≠ 0 → vel'.at' i = vel.at' i) :
    momentum M vel' = momentum M vel := by
  unfold momentum
  rw [hl]
  congr 1 <;>
  · refine Finset.sum_congr rfl fun i _ => ?_
    by_cases hM : M i = 0
    · rw [hM, zero_mul, zero_mul]
    · rw [h i hM]

variable [Elem F]
variable {st : JStep F} {bodies : Nat → JBody F} {pos : Arr (Pos F)} {M : Nat → F}

/-- The joint cannot change the momentum with weights `M`: it holds two bodies to each other, or has bodies of no weight only. -/
def Level (bodies : Nat → JBody F) (M : Nat → F) (j : Joint F) : Prop :=
  (j.plain = true ∧ (bodies j.bodyA).index ≠ (bodies j.bodyB).index ∧
    M (bodies j.bodyA).index * (bodies j.bodyA).invMass = M (bodies j.bodyB).index * (bodies j.bodyB).invMass) ∨
  ∀ b ∈ j.touched, M (bodies b).index = 0

theorem Opposed.balance {j : Joint F} {vel vel' : Arr (Vel F)} (h : Opposed bodies pos j vel vel') (hne : (bodies j.bodyA).index ≠ (bodies j.bodyB).index)
    (hM : M (bodies j.bodyA).index * (bodies j.bodyA).invMass = M (bodies j.bodyB).index * (bodies j.bodyB).invMass) :
    B2.momentum M vel' = B2.momentum M vel := by
  obtain ⟨u, v, t, k, f, _, _⟩ := h.ex
  exact k.balance (by rw [f]; exact hne) (by rw [f]; exact hM)

theorem Level.init {j j' : Joint F} {v v' : Arr (Vel F)} (hj : Level bodies M j) (h : j.initVel st bodies pos v = some (j', v')) :
    Level bodies M j' ∧ j'.Armed bodies pos ∧ momentum M v' = momentum M v := by
  obtain ⟨p1, p2, -, -, p5⟩ := Joint.initVel_pushed h
  obtain ⟨e1, e2, e3, -, -, -, e7⟩ := Joint.calls_same p5
  have et : j'.touched = j.touched := by rw [← Joint.touched_strip, p5, Joint.touched_strip, Joint.touched_prepared]
  rcases hj with ⟨hp, hne, hM⟩ | h0
  · refine ⟨.inl ⟨e1.trans hp, ?_, ?_⟩, e7, (Joint.initVel_opposed hp h).1.balance hne hM⟩ <;> rw [e2, e3] <;> assumption
  · refine ⟨.inr (by rw [et]; exact h0), e7, momentum_same p1 fun i hi => p2 i fun b hb => ?_⟩
    obtain ⟨c, hc, rfl⟩ := List.mem_map.1 hb
    rintro rfl
    exact hi (h0 c hc)

theorem Level.solve {j j' : Joint F} {v v' : Arr (Vel F)} (hj : Level bodies M j) (ha : j.Armed bodies pos) (h : j.solveVel st v = some (j', v')) :
    Level bodies M j' ∧ j'.Armed bodies pos ∧ momentum M v' = momentum M v := by
  obtain ⟨hp, hs⟩ := Joint.solveVel_pushed ha h
  obtain ⟨e1, e2, e3, -, -, -, e7⟩ := Joint.same_of_strip hs bodies pos
  have et : j'.touched = j.touched := by rw [← Joint.touched_strip, hs, Joint.touched_strip]
  rcases hj with ⟨hp, hne, hM⟩ | h0
  · refine ⟨.inl ⟨e1.trans hp, ?_, ?_⟩, e7.2 ha, (Joint.solveVel_opposed hp ha h).balance hne hM⟩ <;> rw [e2, e3] <;> assumption
  · refine ⟨.inr (by rw [et]; exact h0), e7.2 ha, momentum_same hp.len fun i hi => hp.other i fun b hb => ?_⟩
    obtain ⟨c, hc, rfl⟩ := List.mem_map.1 hb
    rintro rfl
    exact hi (h0 c hc)

theorem initJoints_balance : ∀ {l : List (Joint F)} {vel : Arr (Vel F)} {r : List (Joint F) × Arr (Vel F)}, (∀ j ∈ l, Level bodies M j) →
    initJoints st bodies pos l vel = some r → (∀ j ∈ r.1, Level bodies M j ∧ j.Armed bodies pos) ∧ momentum M r.2 = momentum M vel
  | [], vel, r, _, h => by
    simp only [initJoints, Option.some.injEq] at h
    subst h
    exact ⟨fun _ hj => (by cases hj), rfl⟩
  | j :: l, vel, r, hT, h => by
    simp only [initJoints, Option.bind_eq_bind, Option.bind_eq_some_iff] at h
    obtain ⟨⟨j', v⟩, h1, r', h2, h3⟩ := h
    simp only [Option.pure_def, Option.some.injEq] at h3
    subst h3
    obtain ⟨i1, i2⟩ := initJoints_balance (fun x hx => hT x (List.mem_cons_of_mem _ hx)) h2
    obtain ⟨k1, k2, k3⟩ := (hT j (List.mem_cons_self ..)).init h1
    refine ⟨fun x hx => ?_, i2.trans k3⟩
    rcases List.mem_cons.1 hx with rfl | hx
    · exact ⟨k1, k2⟩
    · exact i1 x hx

theorem solveJoints_balance : ∀ {l : List (Joint F)} {vel : Arr (Vel F)} {r : List (Joint F) × Arr (Vel F)}, (∀ j ∈ l, Level bodies M j ∧ j.Armed bodies pos) →
    solveJoints st l vel = some r → (∀ j ∈ r.1, Level bodies M j ∧ j.Armed bodies pos) ∧ momentum M r.2 = momentum M vel
  | [], vel, r, _, h => by
    simp only [solveJoints, Option.some.injEq] at h
    subst h
    exact ⟨fun _ hj => (by cases hj), rfl⟩
  | j :: l, vel, r, hT, h => by
    simp only [solveJoints, Option.bind_eq_bind, Option.bind_eq_some_iff] at h
    obtain ⟨⟨j', v⟩, h1, r', h2, h3⟩ := h
    simp only [Option.pure_def, Option.some.injEq] at h3
    subst h3
    obtain ⟨i1, i2⟩ := solveJoints_balance (fun x hx => hT x (List.mem_cons_of_mem _ hx)) h2
    have hj := hT j (List.mem_cons_self ..)
    obtain ⟨k1, k2, k3⟩ := hj.1.solve hj.2 h1
    refine ⟨fun x hx => ?_, i2.trans k3⟩
    rcases List.mem_cons.1 hx with rfl | hx
    · exact ⟨k1, k2⟩
    · exact i1 x hx

theorem islandIterate_balance {block : Bool} :
    ∀ {k : Nat} {js : List (Joint F)} {l : List (VConstraint F)} {vel : Arr (Vel F)} {r : List (Joint F) × List (VConstraint F) × Arr (Vel F)},
    (∀ j ∈ js, Level bodies M j ∧ j.Armed bodies pos) → (∀ vc ∈ l, ∀ v v', Kick vc v v' → momentum M v' = momentum M v) →
    islandIterate st block k js l vel = some r → (∀ j ∈ r.1, Level bodies M j ∧ j.Armed bodies pos) ∧ momentum M r.2.2 = momentum M vel
  | 0, js, l, vel, r, hj, _, h => by
    simp only [islandIterate, Option.some.injEq] at h
    subst h
    exact ⟨hj, rfl⟩
  | k + 1, js, l, vel, r, hj, hl, h => by
    simp only [islandIterate, Option.bind_eq_bind, Option.bind_eq_some_iff] at h
    obtain ⟨q, h1, ⟨l', v'⟩, h2, h3⟩ := h
    obtain ⟨a1, a2⟩ := solveJoints_balance hj h1
    obtain ⟨b1, b2⟩ := solveVelocities_rel (R := fun v v' => momentum M v' = momentum M v) (fun _ => rfl) (fun _ _ _ h h' => h'.trans h) hl h2
    obtain ⟨c1, c2⟩ := islandIterate_balance a1 (kick_rel_same (R := fun v v' => momentum M v' = momentum M v) b1 hl) h3
    exact ⟨c1, c2.trans (b2.trans a2)⟩

theorem islandVelocity_balance {block : Bool} {iterations : Nat} {vel : Arr (Vel F)} {contacts : List (ContactIn F)} {joints : List (Joint F)}
    (hj : ∀ j ∈ joints, Level bodies M j) (hc : ∀ c ∈ contacts, c.indexA ≠ c.indexB ∧ M c.indexA * c.invMassA = M c.indexB * c.invMassB)
    {r : List (Joint F) × Arr (Vel F) × List (Manifold F)} (h : islandVelocity st block iterations bodies pos vel contacts joints = some r) :
    (∀ j ∈ r.1, Level bodies M j ∧ j.Armed bodies pos) ∧ momentum M r.2.1 = momentum M vel := by
  simp only [islandVelocity, Option.bind_eq_bind, Option.bind_eq_some_iff] at h
  obtain ⟨cs, h1, v1, h2, js, h3, q, h4, h5⟩ := h
  simp only [Option.pure_def, Option.some.injEq] at h5
  subst h5
  have hkick : ∀ vc ∈ cs.map (·.1), ∀ v v', Kick vc v v' → momentum M v' = momentum M v := fun vc hv v v' hk => by
    obtain ⟨c, hcm, hrd⟩ := setUp_each h1 hv
    obtain ⟨k1, k2⟩ := hc c hcm
    exact kick_balance (by rw [hrd.indexA, hrd.indexB]; exact k1) (by rw [hrd.indexA, hrd.indexB, hrd.massA, hrd.massB]; exact k2) hk
  have hw : momentum M v1 = momentum M vel := by
    unfold warmIf at h2
    split at h2
    · exact warmStart_rel (R := fun v v' => momentum M v' = momentum M v) (fun _ => rfl) (fun _ _ _ h h' => h'.trans h) hkick h2
    · cases h2; rfl
  obtain ⟨a1, a2⟩ := initJoints_balance hj h3
  obtain ⟨c1, c2⟩ := islandIterate_balance a1 hkick h4
  exact ⟨c1, c2.trans (a2.trans hw)⟩

/-- The contacts and joints of the island cannot change the momentum of its bodies with weights `W`. -/
structure Balanced (E : Engine F) (w : World F) (isl : Island) (W : Nat → F) : Prop where
  contacts : ∀ c ∈ isl.contacts, ∀ x y, (w.g.fixtures (w.g.contacts c).fA).body = some x → (w.g.fixtures (w.g.contacts c).fB).body = some y →
    W x * (w.phys x).invMass = W y * (w.phys y).invMass
  joints : ∀ j ∈ isl.joints, ((E.joint w j).plain = true ∧ (E.joint w j).bodyA ≠ (E.joint w j).bodyB ∧
    W (E.joint w j).bodyA * (w.phys (E.joint w j).bodyA).invMass = W (E.joint w j).bodyB * (w.phys (E.joint w j).bodyB).invMass) ∨
    ∀ b ∈ (E.joint w j).touched, W b = 0

theorem plain_touched {j : Joint F} (h : j.plain = true) : j.bodyA ∈ j.touched ∧ j.bodyB ∈ j.touched := by
  cases j <;> first | exact (Bool.false_ne_true h).elim | exact ⟨List.mem_cons_self .., List.mem_cons_of_mem _ (List.mem_cons_self ..)⟩

theorem velocity_balance {E : Engine F} {w : World F} {isl : Island} {step : TimeStep F} {W : Nat → F} (hs : Seated E) (hf : Fitted w isl)
    (hb : Balanced E w isl W) {states : List (BState F)} {r : List (Joint F) × Arr (Vel F) × List (Manifold F)} (e : E.velocity w isl step states = some r) :
    (∀ j ∈ r.1, Level w.jbody (fun i => W (isl.bodies.getD i 0)) j ∧ j.Armed w.jbody (World.positionsOf states)) ∧
      momentum (fun i => W (isl.bodies.getD i 0)) r.2.1 = momentum (fun i => W (isl.bodies.getD i 0)) (World.velocitiesOf states) := by
  unfold Engine.velocity at e
  obtain ⟨cs, e1, e2⟩ := Option.bind_eq_some_iff.1 e
  have hW : ∀ b ∈ isl.bodies, W (isl.bodies.getD (w.phys b).islandIndex.toNat 0) = W b := fun b hbm => by
    rw [List.getD_eq_getElem?_getD, hf.place hbm]; rfl
  have hinj : ∀ x ∈ isl.bodies, ∀ y ∈ isl.bodies, x ≠ y → (w.phys x).islandIndex.toNat ≠ (w.phys y).islandIndex.toNat := fun x hx y hy hne h => by
    exact hne (hf.same (hf.place hy) hx h)
  refine islandVelocity_balance (fun j hj => ?_) (fun x hx => ?_) e2
  · obtain ⟨k, hk, rfl⟩ := List.mem_map.1 hj
    have ht : ∀ c ∈ (E.joint w k).touched, c ∈ isl.bodies := fun c hc => touched_mem hs hf hk hc
    rcases hb.joints k hk with ⟨hp, hne, hM⟩ | h0
    · have hA := ht _ (plain_touched hp).1
      have hB := ht _ (plain_touched hp).2
      refine .inl ⟨hp, hinj _ hA _ hB hne, ?_⟩
      show W (isl.bodies.getD (w.phys _).islandIndex.toNat 0) * _ = W (isl.bodies.getD (w.phys _).islandIndex.toNat 0) * _
      rw [hW _ hA, hW _ hB]
      exact hM
    · refine .inr fun b hbt => ?_
      show W (isl.bodies.getD (w.phys b).islandIndex.toNat 0) = 0
      rw [hW _ (ht b hbt)]
      exact h0 b hbt
  · obtain ⟨c, hc, bA, bB, rd⟩ := contactsIn_each hf e1 hx
    rw [rd.indexA, rd.indexB, rd.massA, rd.massB]
    refine ⟨hinj _ rd.memA _ rd.memB rd.ne, ?_⟩
    rw [hW _ rd.memA, hW _ rd.memB]
    exact hb.contacts c hc _ _ rd.bodyA rd.bodyB

end
end B2
