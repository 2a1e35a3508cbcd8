import Verif.Proofs.ContactSolver

/-!
# Properties of the contact solver
-/
namespace B2.Props
open B2

section
variable {F : Type} [Field F] [LinearOrder F] [IsStrictOrderedRing F]

/-- Unpacking the velocity phase. -/
theorem velocityPhase_some [Elem F] {ph : VelocityPhase F} {pos : Arr (Pos F)} {vel : Arr (Vel F)}
    {contacts : List (ContactIn F)} {r : List (VConstraint F) × Arr (Vel F) × List (Manifold F)}
    (h : velocityPhase ph pos vel contacts = some r) :
    ∃ cs v1, setUp ph.warm ph.dtRatio ph.block pos vel contacts = some cs ∧
      warmIf ph.warm (cs.map (·.1)) vel = some v1 ∧
      iterate ph.block ph.joints 0 ph.iterations (cs.map (·.1)) (ph.jointInit v1) = some (r.1, r.2.1) ∧
      r.2.2 = (r.1.zip contacts).map fun x => storeInto x.1 x.2.manifold := by
  unfold velocityPhase at h
  obtain ⟨cs, h1, h⟩ := Option.bind_eq_some_iff.1 h
  obtain ⟨v1, h2, h⟩ := Option.bind_eq_some_iff.1 h
  obtain ⟨r1, h3, h⟩ := Option.bind_eq_some_iff.1 h
  simp only [Option.pure_def, Option.some.injEq] at h
  subst h
  exact ⟨cs, v1, h1, h2, h3, rfl⟩

/-- Any relation between velocities that contains what the joints do and pushing the two bodies of a contact holds
over the velocity phase. -/
theorem velocityPhase_rel [Elem F] {ph : VelocityPhase F} {pos : Arr (Pos F)} {vel : Arr (Vel F)}
    {contacts : List (ContactIn F)} {r : List (VConstraint F) × Arr (Vel F) × List (Manifold F)}
    {R : Arr (Vel F) → Arr (Vel F) → Prop} (hr : ∀ v, R v v) (ht : ∀ u v w, R u v → R v w → R u w)
    (hji : ∀ v, R v (ph.jointInit v)) (hj : ∀ i v, R v (ph.joints i v))
    (hk : ∀ c ∈ contacts, ∀ vc, Ready ph.block c pos vel vc → ∀ v v', Kick vc v v' → R v v')
    (h : velocityPhase ph pos vel contacts = some r) : R vel r.2.1 := by
  obtain ⟨cs, v1, h1, h2, h3, _⟩ := velocityPhase_some h
  have hs := setUp_spec h1
  have hk' : ∀ vc ∈ cs.map (·.1), ∀ v v', Kick vc v v' → R v v' := by
    intro vc hvc
    obtain ⟨i, hi⟩ := List.mem_iff_getElem?.1 hvc
    obtain ⟨hi', hvc'⟩ := List.getElem?_eq_some_iff.1 hi
    have hlen : i < contacts.length := by rw [hs.length_eq]; exact hi'
    have hrd := ((List.forall₂_iff_get.1 hs).2 i hlen hi').1
    simp only [List.get_eq_getElem] at hrd
    rw [hvc'] at hrd
    exact hk _ (List.getElem_mem hlen) vc hrd
  have hw : R vel v1 := by
    unfold warmIf at h2
    split at h2
    · exact warmStart_rel hr ht hk' h2
    · simp only [Option.some.injEq] at h2; subst h2; exact hr _
  exact ht _ _ _ hw (ht _ _ _ (hji v1) (iterate_rel hr ht hj hk' h3).2)

/-! ## C69 -/

/-- C69: the velocity phase of an island never panics, and contacts only push: all normal impulses it reports are
nonnegative, if those it starts from are. -/
theorem c69_contacts_only_push [Elem F] (ph : VelocityPhase F) (pos : Arr (Pos F)) (vel : Arr (Vel F))
    (contacts : List (ContactIn F)) (hl : pos.len = vel.len) (hd : 0 ≤ ph.dtRatio)
    (hji : ∀ v, (ph.jointInit v).len = v.len) (hj : ∀ i v, (ph.joints i v).len = v.len)
    (hc : ∀ c ∈ contacts, c.Ok vel.len) (hp : ∀ c ∈ contacts, Pushing c.manifold) :
    ∃ vcs vel' ms, velocityPhase ph pos vel contacts = some (vcs, vel', ms) ∧ vel'.len = vel.len ∧
      ms.length = contacts.length ∧ ∀ m ∈ ms, Pushing m := by
  obtain ⟨cs, h1⟩ := setUp_total (warm := ph.warm) (dtRatio := ph.dtRatio) (block := ph.block) (pos := pos) (vel := vel)
    (contacts := contacts) hl (fun c h => ⟨(hc c h).points, (hc c h).indexA, (hc c h).indexB⟩)
  have hsv := setUp_solvable h1 hd (fun c h => ⟨(hc c h).indexA, (hc c h).indexB, hp c h⟩)
  have hw : ∃ v1, warmIf ph.warm (cs.map (·.1)) vel = some v1 ∧ v1.len = vel.len := by
    unfold warmIf
    split
    · exact warmStart_total _ _ hsv
    · exact ⟨vel, rfl, rfl⟩
  obtain ⟨v1, h2, hl1⟩ := hw
  obtain ⟨l', vel', h3, hl2, hs'⟩ := iterate_total ph.block hj ph.iterations 0 (cs.map (·.1)) (ph.jointInit v1)
    (by rw [hji, hl1]; exact hsv)
  have hsame := (iterate_rel (R := fun _ _ => True) (fun _ => trivial) (fun _ _ _ _ _ => trivial)
    (fun _ _ => trivial) (fun _ _ _ _ _ => trivial) h3).1
  have hlen : l'.length = contacts.length := by
    rw [← hsame.length_eq, ← (setUp_spec h1).length_eq]
  refine ⟨l', vel', (l'.zip contacts).map fun x => storeInto x.1 x.2.manifold, ?_, ?_, ?_, ?_⟩
  · unfold velocityPhase
    simp only [h1, h2, h3, Option.bind_eq_bind, Option.bind_some]; rfl
  · rw [hl2, hji, hl1]
  · simp [hlen]
  · intro m hm
    obtain ⟨x, hx, rfl⟩ := List.mem_map.1 hm
    have hx1 := List.of_mem_zip hx
    obtain ⟨_, _, hcnt, hn1, hn2⟩ := hs' _ hx1.1
    intro p hpm
    simp only [storeInto] at hpm
    obtain ⟨j, hj, rfl⟩ := List.mem_mapIdx.1 hpm
    have hold := hp _ hx1.2 _ (List.getElem_mem hj)
    split
    · split
      · exact hn1
      · rename_i h1 h0
        exact hn2 (by omega)
    · exact hold

/-! ## C71 -/

/-- C71: contacts conserve momentum. In an island whose bodies all have finite mass, whatever the contacts, their
number, friction, restitution, warm starting and iterations, the velocity phase leaves the total momentum as it was,
provided the joints do. -/
theorem c71_momentum [Elem F] (ph : VelocityPhase F) (pos : Arr (Pos F)) (vel : Arr (Vel F)) (contacts : List (ContactIn F))
    (M invM invI : Nat → F) (hM : ∀ i, M i * invM i = 1)
    (hc : ∀ c ∈ contacts, c.Ok vel.len ∧ c.MassesAre invM invI)
    (hji : ∀ v, momentum M (ph.jointInit v) = momentum M v) (hj : ∀ i v, momentum M (ph.joints i v) = momentum M v)
    (vcs : List (VConstraint F)) (vel' : Arr (Vel F)) (ms : List (Manifold F))
    (h : velocityPhase ph pos vel contacts = some (vcs, vel', ms)) : momentum M vel' = momentum M vel := by
  refine velocityPhase_rel (R := fun v v' => momentum M v' = momentum M v) (fun _ => rfl) (fun _ _ _ h h' => h'.trans h)
    hji hj (fun c hcm vc hr v v' hk => ?_) h
  obtain ⟨hok, mA, mB, _, _⟩ := hc c hcm
  refine kick_momentum (by rw [hr.indexA, hr.indexB]; exact hok.ne) ?_ ?_ hk
  · rw [hr.indexA, hr.massA, mA]; exact hM _
  · rw [hr.indexB, hr.massB, mB]; exact hM _

/-- C71: contacts conserve angular momentum about any point, here the origin. -/
theorem c71_angular_momentum [Elem F] (ph : VelocityPhase F) (pos : Arr (Pos F)) (vel : Arr (Vel F))
    (contacts : List (ContactIn F)) (M J invM invI : Nat → F) (hM : ∀ i, M i * invM i = 1) (hJ : ∀ i, J i * invI i = 1)
    (hc : ∀ c ∈ contacts, c.Ok vel.len ∧ c.MassesAre invM invI)
    (hji : ∀ v, angularMomentum M J (fun i => (pos.at' i).c) (ph.jointInit v) = angularMomentum M J (fun i => (pos.at' i).c) v)
    (hj : ∀ i v, angularMomentum M J (fun i => (pos.at' i).c) (ph.joints i v) = angularMomentum M J (fun i => (pos.at' i).c) v)
    (vcs : List (VConstraint F)) (vel' : Arr (Vel F)) (ms : List (Manifold F))
    (h : velocityPhase ph pos vel contacts = some (vcs, vel', ms)) :
    angularMomentum M J (fun i => (pos.at' i).c) vel' = angularMomentum M J (fun i => (pos.at' i).c) vel := by
  refine velocityPhase_rel (R := fun v v' => angularMomentum M J (fun i => (pos.at' i).c) v' =
    angularMomentum M J (fun i => (pos.at' i).c) v) (fun _ => rfl) (fun _ _ _ h h' => h'.trans h)
    hji hj (fun c hcm vc hr v v' hk => ?_) h
  obtain ⟨hok, mA, mB, iA, iB⟩ := hc c hcm
  obtain ⟨wm, _, _, hp1, hp2⟩ := hr.wm
  refine kick_angular (by rw [hr.indexA, hr.indexB]; exact hok.ne) ?_ ?_ ?_ ?_ ?_ ?_ hk
  · rw [hr.indexA, hr.massA, mA]; exact hM _
  · rw [hr.indexB, hr.massB, mB]; exact hM _
  · rw [hr.indexA, hr.inertiaA, iA]; exact hJ _
  · rw [hr.indexB, hr.inertiaB, iB]; exact hJ _
  · rw [hp1.rA, hp1.rB, hr.indexA, hr.indexB]; ext <;> simp
  · intro h2
    rcases hp2 with hp2 | ⟨_, _, hp2, _⟩
    · omega
    · rw [hp2.rA, hp2.rB, hr.indexA, hr.indexB]; ext <;> simp

/-! ## C75 -/

/-- C75: a body of infinite mass and inertia (static, kinematic) keeps its velocity. -/
theorem c75_velocity [Elem F] (ph : VelocityPhase F) (pos : Arr (Pos F)) (vel : Arr (Vel F)) (contacts : List (ContactIn F))
    (invM invI : Nat → F) (hc : ∀ c ∈ contacts, c.Ok vel.len ∧ c.MassesAre invM invI) (i : Nat) (hi : invM i = 0 ∧ invI i = 0)
    (hji : ∀ v, (ph.jointInit v).at' i = v.at' i) (hj : ∀ k v, (ph.joints k v).at' i = v.at' i)
    (vcs : List (VConstraint F)) (vel' : Arr (Vel F)) (ms : List (Manifold F))
    (h : velocityPhase ph pos vel contacts = some (vcs, vel', ms)) : vel'.at' i = vel.at' i := by
  refine velocityPhase_rel (R := fun v v' => v'.at' i = v.at' i) (fun _ => rfl) (fun _ _ _ h h' => h'.trans h)
    hji hj (fun c hcm vc hr v v' hk => ?_) h
  obtain ⟨hok, mA, mB, iA, iB⟩ := hc c hcm
  refine kick_fixed ?_ ?_ (by rw [hr.indexA, hr.indexB]; exact hok.ne) hk
  · intro h
    rw [hr.indexA] at h
    rw [hr.massA, hr.inertiaA, mA, iA, h]; exact hi
  · intro h
    rw [hr.indexB] at h
    rw [hr.massB, hr.inertiaB, mB, iB, h]; exact hi

/-- The position constraint of a contact. -/
theorem setUp_pc [Elem F] {warm : Bool} {dtRatio : F} {block : Bool} {pos : Arr (Pos F)} {vel : Arr (Vel F)}
    {contacts : List (ContactIn F)} {cs : List (VConstraint F × PConstraint F)}
    (h : setUp warm dtRatio block pos vel contacts = some cs) {pc : PConstraint F} (hpc : pc ∈ cs.map (·.2)) :
    ∃ c ∈ contacts, ∃ vc, newConstraint warm dtRatio c = some (vc, pc) := by
  have hs := setUp_pcs h
  obtain ⟨i, hi⟩ := List.mem_iff_getElem?.1 hpc
  obtain ⟨hi', hvc'⟩ := List.getElem?_eq_some_iff.1 hi
  have hlen : i < contacts.length := by rw [hs.length_eq]; exact hi'
  have hrd := (List.forall₂_iff_get.1 hs).2 i hlen hi'
  simp only [List.get_eq_getElem] at hrd
  rw [hvc'] at hrd
  exact ⟨_, List.getElem_mem hlen, hrd⟩

/-- C75: position correction leaves the centre of a body of infinite mass where it is, and does not turn a body of
infinite inertia. -/
theorem c75_position [Elem F] {warm : Bool} {dtRatio : F} {block : Bool} {pos : Arr (Pos F)} {vel : Arr (Vel F)}
    {contacts : List (ContactIn F)} {cs : List (VConstraint F × PConstraint F)}
    (hs : setUp warm dtRatio block pos vel contacts = some cs) (invM invI : Nat → F)
    (hc : ∀ c ∈ contacts, c.Ok vel.len ∧ c.MassesAre invM invI) (p p' : Arr (Pos F)) (ok : Bool)
    (h : solvePositions (cs.map (·.2)) p = some (ok, p')) (i : Nat) :
    (invM i = 0 → (p'.at' i).c = (p.at' i).c) ∧ (invI i = 0 → (p'.at' i).a = (p.at' i).a) := by
  unfold solvePositions at h
  obtain ⟨r, hr, h⟩ := Option.bind_eq_some_iff.1 h
  simp only [Option.pure_def, Option.some.injEq, Prod.mk.injEq] at h
  obtain ⟨_, rfl⟩ := h
  have hpcs : ∀ pc ∈ cs.map (·.2), pc.indexA ≠ pc.indexB ∧ pc.invMassA = invM pc.indexA ∧ pc.invMassB = invM pc.indexB ∧
      pc.invIA = invI pc.indexA ∧ pc.invIB = invI pc.indexB := by
    intro pc hpc
    obtain ⟨c, hcm, vc, hn⟩ := setUp_pc hs hpc
    obtain ⟨e1, e2, e3, e4, e5, e6, _⟩ := newConstraint_pc hn
    obtain ⟨hok, mA, mB, iA, iB⟩ := hc c hcm
    simp only at e1 e2 e3 e4 e5 e6
    rw [e1, e2, e3, e4, e5, e6]
    exact ⟨hok.ne, mA, mB, iA, iB⟩
  refine ⟨fun hi => ?_, fun hi => ?_⟩
  · refine solvePosLoop_rel (R := fun q q' => (q'.at' i).c = (q.at' i).c) (fun _ => rfl) (fun _ _ _ h h' => h'.trans h)
      (fun pc hpc q s' m _ _ hsh => ?_) hr
    obtain ⟨hne, mA, mB, _, _⟩ := hpcs pc hpc
    exact shift_fixed i (fun h => by show pc.invMassA = 0; rw [mA, h, hi]) (fun h => by show pc.invMassB = 0; rw [mB, h, hi]) hne hsh
  · refine solvePosLoop_rel (R := fun q q' => (q'.at' i).a = (q.at' i).a) (fun _ => rfl) (fun _ _ _ h h' => h'.trans h)
      (fun pc hpc q s' m _ _ hsh => ?_) hr
    obtain ⟨hne, _, _, iA, iB⟩ := hpcs pc hpc
    exact shift_fixed_angle i (fun h => by show pc.invIA = 0; rw [iA, h, hi]) (fun h => by show pc.invIB = 0; rw [iB, h, hi]) hne hsh

/-- C75: position correction at a time of impact moves none but the two bodies of that impact. -/
theorem c75_toi [Elem F] {warm : Bool} {dtRatio : F} {block : Bool} {pos : Arr (Pos F)} {vel : Arr (Vel F)}
    {contacts : List (ContactIn F)} {cs : List (VConstraint F × PConstraint F)}
    (hs : setUp warm dtRatio block pos vel contacts = some cs) (hc : ∀ c ∈ contacts, c.Ok vel.len) (toiA toiB : Nat)
    (p p' : Arr (Pos F)) (ok : Bool) (h : solveToiPositions toiA toiB (cs.map (·.2)) p = some (ok, p')) (i : Nat)
    (hA : i ≠ toiA) (hB : i ≠ toiB) : p'.at' i = p.at' i := by
  unfold solveToiPositions at h
  obtain ⟨r, hr, h⟩ := Option.bind_eq_some_iff.1 h
  simp only [Option.pure_def, Option.some.injEq, Prod.mk.injEq] at h
  obtain ⟨_, rfl⟩ := h
  refine solvePosLoop_rel (R := fun q q' => q'.at' i = q.at' i) (fun _ => rfl) (fun _ _ _ h h' => h'.trans h)
    (fun pc hpc q s' m _ _ hsh => ?_) hr
  obtain ⟨c, hcm, vc, hn⟩ := setUp_pc hs hpc
  obtain ⟨e1, e2, _⟩ := newConstraint_pc hn
  have hne : pc.indexA ≠ pc.indexB := by simp only at e1 e2; rw [e1, e2]; exact (hc c hcm).ne
  refine Pos.ext (shift_fixed i ?_ ?_ hne hsh) (shift_fixed_angle i ?_ ?_ hne hsh) <;> intro h <;> subst h <;>
    exact if_neg (by rintro (h | h); exacts [hA h, hB h])

/-! ## C74 -/

/-- C74: position correction leaves the centre of mass of an island where it is, if all its bodies have finite mass. -/
theorem c74_centre_of_mass [Elem F] {warm : Bool} {dtRatio : F} {block : Bool} {pos : Arr (Pos F)} {vel : Arr (Vel F)}
    {contacts : List (ContactIn F)} {cs : List (VConstraint F × PConstraint F)}
    (hs : setUp warm dtRatio block pos vel contacts = some cs) (M invM invI : Nat → F) (hM : ∀ i, M i * invM i = 1)
    (hc : ∀ c ∈ contacts, c.Ok vel.len ∧ c.MassesAre invM invI) (p p' : Arr (Pos F)) (ok : Bool)
    (h : solvePositions (cs.map (·.2)) p = some (ok, p')) : massPoint M p' = massPoint M p := by
  unfold solvePositions at h
  obtain ⟨r, hr, h⟩ := Option.bind_eq_some_iff.1 h
  simp only [Option.pure_def, Option.some.injEq, Prod.mk.injEq] at h
  obtain ⟨_, rfl⟩ := h
  refine solvePosLoop_rel (R := fun q q' => massPoint M q' = massPoint M q) (fun _ => rfl) (fun _ _ _ h h' => h'.trans h)
    (fun pc hpc q s' m h1 h2 hsh => ?_) hr
  obtain ⟨c, hcm, vc, hn⟩ := setUp_pc hs hpc
  obtain ⟨e1, e2, e3, e4, _⟩ := newConstraint_pc hn
  obtain ⟨hok, mA, mB, _, _⟩ := hc c hcm
  simp only at e1 e2 e3 e4
  refine shift_massPoint h1 h2 (by rw [e1, e2]; exact hok.ne) ?_ ?_ hsh
  · show M pc.indexA * pc.invMassA = 1; rw [e1, e3, mA]; exact hM _
  · show M pc.indexB * pc.invMassB = 1; rw [e2, e4, mB]; exact hM _

/-- The number of contact points of a body, counted over the position constraints. -/
theorem pointsOf_eq {warm : Bool} {dtRatio : F} (i : Nat) {contacts : List (ContactIn F)} {pcs : List (PConstraint F)}
    (h : List.Forall₂ (fun c pc => ∃ vc, newConstraint warm dtRatio c = some (vc, pc)) contacts pcs) :
    pointsOf i pcs = contactPointsOf i contacts := by
  induction h with
  | nil => rfl
  | cons h1 _ ih =>
    obtain ⟨vc, hn⟩ := h1
    obtain ⟨e1, e2, _, _, _, _, _, _, _, _, e3, _⟩ := newConstraint_pc hn
    simp only at e1 e2 e3
    simp only [pointsOf, contactPointsOf, List.map_cons, List.sum_cons, e1, e2, e3]
    rw [ih]; rfl

/-- C74: position correction does not make bodies jump: one call moves the centre of a body by at most 0.2 in each
coordinate for each of its contact points. It never panics. -/
theorem c74_bounded [Elem F] [ElemLaws F] {warm : Bool} {dtRatio : F} {block : Bool} {pos : Arr (Pos F)} {vel : Arr (Vel F)}
    {contacts : List (ContactIn F)} {cs : List (VConstraint F × PConstraint F)}
    (hs : setUp warm dtRatio block pos vel contacts = some cs) (p : Arr (Pos F)) (hl : p.len = vel.len)
    (hc : ∀ c ∈ contacts, c.Ok vel.len) :
    ∃ ok p', solvePositions (cs.map (·.2)) p = some (ok, p') ∧ p'.len = p.len ∧
      ∀ i, |(p'.at' i).c.x - (p.at' i).c.x| ≤ contactPointsOf i contacts * (2 / 10) ∧
        |(p'.at' i).c.y - (p.at' i).c.y| ≤ contactPointsOf i contacts * (2 / 10) := by
  have hpcs : ∀ pc ∈ cs.map (·.2), ∃ c ∈ contacts, pc.indexA = c.indexA ∧ pc.indexB = c.indexB ∧ pc.invMassA = c.invMassA ∧
      pc.invMassB = c.invMassB ∧ pc.invIA = c.invIA ∧ pc.invIB = c.invIB ∧ pc.localNormal = c.manifold.localNormal ∧
      pc.type = c.manifold.type ∧ pc.pointCount ≤ 2 := by
    intro pc hpc
    obtain ⟨c, hcm, vc, hn⟩ := setUp_pc hs hpc
    obtain ⟨e1, e2, e3, e4, e5, e6, e7, e8, e9, e10, e11, e12⟩ := newConstraint_pc hn
    exact ⟨c, hcm, e1, e2, e3, e4, e5, e6, e9, e10, e12⟩
  obtain ⟨r, hr, hrl⟩ := solvePosLoop_total baumgarte
    (fun pc : PConstraint F => ⟨pc.invMassA, pc.invIA, pc.invMassB, pc.invIB⟩) (cs.map (·.2)) 0 p (fun pc hpc => by
      obtain ⟨c, hcm, e1, e2, _, _, _, _, _, _, e12⟩ := hpcs pc hpc
      rw [hl, e1, e2]
      exact ⟨(hc c hcm).indexA, (hc c hcm).indexB, e12⟩)
  refine ⟨decide (r.1 ≥ -3 * linearSlop), r.2, ?_, hrl, fun i => ?_⟩
  · unfold solvePositions
    simp only [hr, Option.bind_eq_bind, Option.bind_some]; rfl
  · have := solvePosLoop_bound i (fun pc hpc => by
      obtain ⟨c, hcm, e1, e2, e3, e4, e5, e6, e9, e10, _⟩ := hpcs pc hpc
      have hok := hc c hcm
      refine ⟨?_, ⟨?_, ?_, ?_, ?_⟩, ?_⟩
      · intro ht
        rw [e10] at ht
        have := hok.normal ht
        rw [e9]; simp only [dot]; linear_combination this
      · show 0 ≤ pc.invMassA; rw [e3]; exact hok.massA
      · show 0 ≤ pc.invMassB; rw [e4]; exact hok.massB
      · show 0 ≤ pc.invIA; rw [e5]; exact hok.inertiaA
      · show 0 ≤ pc.invIB; rw [e6]; exact hok.inertiaB
      · rw [e1, e2]; exact hok.ne) hr
    rw [pointsOf_eq i (setUp_pcs hs)] at this
    exact this

/-- C74: position correction lets alone what needs none: if no contact overlaps by more than the slop, nothing moves
and success is reported. -/
theorem c74_rest [Elem F] [ElemLaws F] {warm : Bool} {dtRatio : F} {block : Bool} {pos : Arr (Pos F)} {vel : Arr (Vel F)}
    {contacts : List (ContactIn F)} {cs : List (VConstraint F × PConstraint F)}
    (hs : setUp warm dtRatio block pos vel contacts = some cs) (p : Arr (Pos F)) (hl : p.len = vel.len)
    (hc : ∀ c ∈ contacts, c.Ok vel.len ∧ c.CentresApart p)
    (hsep : ∀ c ∈ contacts, ∃ wm, c.worldAt p = some wm ∧ -linearSlop ≤ wm.s1 ∧
      (c.manifold.points.length = 2 → -linearSlop ≤ wm.s2)) :
    solvePositions (cs.map (·.2)) p = some (true, p) := by
  obtain ⟨ok, p', h, _⟩ := c74_bounded hs p hl (fun c h => (hc c h).1)
  rw [h]
  unfold solvePositions at h
  obtain ⟨r, hr, h⟩ := Option.bind_eq_some_iff.1 h
  simp only [Option.pure_def, Option.some.injEq, Prod.mk.injEq] at h
  obtain ⟨h1, h2⟩ := h
  have hslop : (0 : F) < linearSlop := by unfold linearSlop; norm_num
  obtain ⟨e1, e2⟩ := solvePosLoop_still (by unfold baumgarte; norm_num) (by linarith) (fun pc hpc => by
    obtain ⟨c, hcm, vc, hn⟩ := setUp_pc hs hpc
    obtain ⟨f1, f2, _, _, _, _, f7, f8, _, _, f11, _⟩ := newConstraint_pc hn
    obtain ⟨hok, hap⟩ := hc c hcm
    obtain ⟨wm, hwm, s1, s2⟩ := hsep c hcm
    have := psm_wm hn hok.normal hok.circles (xf_unit (p.at' c.indexA) c.localCenterA) (xf_unit (p.at' c.indexB) c.localCenterB) hap hwm
    simp only at f1 f2 f7 f8 f11 this
    unfold PConstraint.sep
    rw [f1, f2, f7, f8]
    refine ⟨fun _ => by rw [this.1]; exact s1, fun h2 => ?_⟩
    rw [this.2 h2]
    exact s2 (by rw [← f11]; rcases hok.points with h | h <;> omega)) hr
  rw [← h1, ← h2, e1]
  have : r.1 ≥ -3 * linearSlop := by linarith
  rw [decide_eq_true this]

/-- C74: a correction separates, and not too far. For a single contact point between bodies that do not turn, the new
separation is larger than the old one and at most minus the slop, and it is exactly a fifth nearer to minus the slop (or
0.2 nearer, if that is less). -/
theorem c74_no_overshoot [Elem F] [ElemLaws F] {warm : Bool} {dtRatio : F} {block : Bool} {pos : Arr (Pos F)} {vel : Arr (Vel F)}
    {c : ContactIn F} {cs : List (VConstraint F × PConstraint F)}
    (hs : setUp warm dtRatio block pos vel [c] = some cs) (p p' : Arr (Pos F)) (ok : Bool)
    (hc : c.Ok vel.len) (h1 : c.manifold.points.length = 1) (hiA : c.invIA = 0) (hiB : c.invIB = 0) (hap : c.CentresApart p)
    (wm wm' : WorldManifold F) (hwm : c.worldAt p = some wm) (hwm' : c.worldAt p' = some wm') (hap' : c.CentresApart p')
    (hsep : wm.s1 < -linearSlop) (h : solvePositions (cs.map (·.2)) p = some (ok, p')) :
    wm'.s1 = wm.s1 + min ((1 / 5) * (-linearSlop - wm.s1)) (1 / 5) ∧ wm.s1 < wm'.s1 ∧ wm'.s1 ≤ -linearSlop := by
  have hpc := setUp_pcs hs
  obtain ⟨pc, hcs, vc, hn⟩ : ∃ pc, cs.map (·.2) = [pc] ∧ ∃ vc, newConstraint warm dtRatio c = some (vc, pc) := by
    cases hm : cs.map (·.2) with
    | nil => rw [hm] at hpc; cases hpc
    | cons pc l =>
      rw [hm] at hpc
      cases hpc with
      | cons h h' => cases h'; exact ⟨pc, rfl, h⟩
  rw [hcs] at h
  unfold solvePositions at h
  obtain ⟨r, hr, h⟩ := Option.bind_eq_some_iff.1 h
  simp only [Option.pure_def, Option.some.injEq, Prod.mk.injEq] at h
  obtain ⟨_, rfl⟩ := h
  simp only [solvePosLoop] at hr
  obtain ⟨r1, hr1, hr⟩ := Option.bind_eq_some_iff.1 hr
  simp only [Option.some.injEq] at hr
  subst hr
  obtain ⟨_, _, _, rfl⟩ := solvePosConstraint_some hr1
  obtain ⟨f1, f2, f3, f4, f5, f6, f7, f8, f9, f10, f11, _⟩ := newConstraint_pc hn
  simp only at f1 f2 f3 f4 f5 f6 f7 f8 f9 f10 f11
  have w1 := (psm_wm hn hc.normal hc.circles (xf_unit _ _) (xf_unit _ _) hap hwm).1
  have w2 := (psm_wm hn hc.normal hc.circles (xf_unit _ _) (xf_unit _ _) hap' hwm').1
  simp only at w1 w2
  rw [f1, f2, upd_same, upd_other _ _ hc.ne, upd_same] at w2
  unfold posInner at w2
  rw [f11, h1] at w2
  simp only at w2
  have hg := solvePoint_gain (beta := baumgarte) (pc := pc) (ms := ⟨pc.invMassA, pc.invIA, pc.invMassB, pc.invIB⟩)
    (by intro ht; rw [f10] at ht; have := hc.normal ht; rw [f9]; simp only [dot]; linear_combination this)
    (by show 0 < pc.invMassA + pc.invMassB; rw [f3, f4]; exact hc.mass) (by show pc.invIA = 0; rw [f5, hiA])
    (by show pc.invIB = 0; rw [f6, hiB]) (lp := pc.lp1) (s := ⟨p.at' c.indexA, p.at' c.indexB, 0⟩) (by
      intro ht
      rw [f10] at ht
      obtain ⟨q1, hq⟩ := List.length_eq_one_iff.1 h1
      have := hap ht q1 (by rw [hq]; simp)
      have e1 : pc.lp1 = q1.localPoint ∧ pc.localPoint = c.manifold.localPoint := by
        unfold newConstraint at hn
        rw [hq] at hn
        simp only [Option.some.injEq, Prod.mk.injEq] at hn
        rw [← hn.2]; exact ⟨rfl, rfl⟩
      rw [e1.1, e1.2, f7, f8]; exact this)
  rw [f7, f8] at hg
  rw [w2, w1] at hg
  have hslop : (0 : F) < linearSlop := by unfold linearSlop; norm_num
  have hmin : b2clamp (baumgarte * (wm.s1 + linearSlop)) (-maxLinearCorrection) 0 =
      -min ((1 / 5) * (-linearSlop - wm.s1)) (1 / 5) := by
    unfold b2clamp b2max b2min maxLinearCorrection baumgarte
    have hneg : (2 / 10 : F) * (wm.s1 + linearSlop) < 0 := by linarith
    rw [if_pos hneg]
    split
    · rw [min_eq_right (by linarith)]; norm_num
    · rw [min_eq_left (by linarith)]; ring
  rw [hmin] at hg
  have hpos : 0 < min ((1 / 5) * (-linearSlop - wm.s1)) (1 / 5) := lt_min (by linarith) (by norm_num)
  have hle : min ((1 / 5) * (-linearSlop - wm.s1)) (1 / 5) ≤ (1 / 5) * (-linearSlop - wm.s1) := min_le_left _ _
  refine ⟨by rw [hg]; ring, by rw [hg]; linarith, by rw [hg]; linarith⟩

/-! ## C72 -/

/-- The normal speed of a constraint point is the separating speed at the point of the world manifold. -/
theorem normalSpeed_eq {vc : VConstraint F} {q : VPoint F} {x cA cB : Vec2 F} {a b : Vel F} (hp : PointReady vc q x cA cB a b)
    (s : Two F) : normalSpeed vc q s = separatingSpeed vc.normal x cA cB s.a s.b := by
  unfold normalSpeed separatingSpeed
  rw [hp.rA, hp.rB]
  simp only [relVel, dot, crossSV, Vec2.add_x, Vec2.add_y, Vec2.sub_x, Vec2.sub_y]
  ring

theorem bias_eq {c : ContactIn F} {vc : VConstraint F} {q : VPoint F} {x cA cB : Vec2 F} {a b : Vel F}
    (hp : PointReady vc q x cA cB a b) (h1 : vc.restitution = c.restitution) (h2 : vc.threshold = c.threshold) :
    q.velocityBias = c.bounce (separatingSpeed vc.normal x cA cB a b) := by
  have e := normalSpeed_eq hp ⟨a, b⟩
  have e' : dot vc.normal (relVel a b q.rA q.rB) = separatingSpeed vc.normal x cA cB a b := by
    rw [← e]; simp only [normalSpeed, dot]; ring
  rw [hp.bias, e', h1, h2]; rfl

/-- C72 for a contact whose normal is known to have length one. -/
theorem contact_condition_unit [Elem F] (ph : VelocityPhase F) (pos : Arr (Pos F)) (vel : Arr (Vel F))
    (front : List (ContactIn F)) (c : ContactIn F) (hl : pos.len = vel.len) (hd : 0 ≤ ph.dtRatio) (hb : ph.block = true)
    (hi : 1 ≤ ph.iterations) (hji : ∀ v, (ph.jointInit v).len = v.len) (hj : ∀ i v, (ph.joints i v).len = v.len)
    (hc : ∀ c' ∈ front ++ [c], c'.Ok vel.len ∧ Pushing c'.manifold) (hu : ∀ wm, c.worldAt pos = some wm → dot wm.normal wm.normal = 1) :
    ∃ vcs vc vel' ms m wm p1, velocityPhase ph pos vel (front ++ [c]) = some (vcs ++ [vc], vel', ms ++ [m]) ∧
      c.worldAt pos = some wm ∧ m.points[0]? = some p1 ∧
      ContactCondition p1.normalImpulse
        (separatingSpeed wm.normal wm.p1 (pos.at' c.indexA).c (pos.at' c.indexB).c (vel'.at' c.indexA) (vel'.at' c.indexB))
        (c.bounce (separatingSpeed wm.normal wm.p1 (pos.at' c.indexA).c (pos.at' c.indexB).c (vel.at' c.indexA) (vel.at' c.indexB))) ∧
      (vc.pointCount = 2 → ∃ p2, m.points[1]? = some p2 ∧ ContactCondition p2.normalImpulse
        (separatingSpeed wm.normal wm.p2 (pos.at' c.indexA).c (pos.at' c.indexB).c (vel'.at' c.indexA) (vel'.at' c.indexB))
        (c.bounce (separatingSpeed wm.normal wm.p2 (pos.at' c.indexA).c (pos.at' c.indexB).c (vel.at' c.indexA) (vel.at' c.indexB)))) := by
  obtain ⟨vcs', vel', ms', h, _⟩ := c69_contacts_only_push ph pos vel (front ++ [c]) hl hd hji hj (fun c h => (hc c h).1)
    (fun c h => (hc c h).2)
  obtain ⟨cs, v1, h1, h2, h3, h4⟩ := velocityPhase_some h
  simp only at h3 h4
  have hsv := setUp_solvable h1 hd (fun c h => ⟨(hc c h).1.indexA, (hc c h).1.indexB, (hc c h).2⟩)
  have hv1 : v1.len = vel.len := by
    unfold warmIf at h2
    split at h2
    · obtain ⟨v', hv', hl'⟩ := warmStart_total _ _ hsv
      rw [h2] at hv'; simp only [Option.some.injEq] at hv'; rw [hv']; exact hl'
    · simp only [Option.some.injEq] at h2; rw [h2]
  have hspec := setUp_spec h1
  obtain ⟨n, hn⟩ : ∃ n, ph.iterations = n + 1 := ⟨ph.iterations - 1, by omega⟩
  rw [hn] at h3
  obtain ⟨⟨l0, v0⟩, h5, h6⟩ := iterate_succ h3
  have hsame := (iterate_rel (R := fun _ _ => True) (fun _ => trivial) (fun _ _ _ _ _ => trivial)
    (fun _ _ => trivial) (fun _ _ _ _ _ => trivial) h5).1
  obtain ⟨l1, v2, h7, _, hsv0⟩ := iterate_total ph.block hj n 0 (cs.map (·.1)) (ph.jointInit v1) (by rw [hji, hv1]; exact hsv)
  rw [h5] at h7
  simp only [Option.some.injEq, Prod.mk.injEq] at h7
  obtain ⟨rfl, rfl⟩ := h7
  -- the constraint of the last contact
  have hR : List.Forall₂ (fun c vc => Ready ph.block c pos vel vc) (front ++ [c]) l0 := by
    rw [List.forall₂_iff_get]
    refine ⟨by rw [hspec.length_eq, hsame.length_eq], fun i hi1 hi2 => ?_⟩
    have hi3 : i < (cs.map (·.1)).length := by rw [hsame.length_eq]; exact hi2
    exact ready_same ((List.forall₂_iff_get.1 hsame).2 i hi3 hi2) ((List.forall₂_iff_get.1 hspec).2 i hi1 hi3).1
  obtain ⟨f0, vc0, rfl⟩ : ∃ f0 vc0, l0 = f0 ++ [vc0] := by
    have : l0 ≠ [] := by
      intro h; have := hR.length_eq; rw [h] at this; simp at this
    exact ⟨l0.dropLast, l0.getLast this, (List.dropLast_append_getLast this).symm⟩
  have hlf : front.length = f0.length := by have := hR.length_eq; simpa using this
  have hrd : Ready ph.block c pos vel vc0 := by
    have := (List.forall₂_iff_get.1 hR).2 front.length (by simp) (by rw [hlf]; simp)
    simpa [hlf] using this
  rw [hb] at hrd h6
  have hcok := (hc c (by simp)).1
  have hp := ready_prep_unit hcok hu hrd
  have hnn := (hsv0 vc0 (by simp)).2.2.2
  obtain ⟨f, vc', hf, hs', hset⟩ := solveVelocities_last hp hnn (by rw [hrd.indexA, hrd.indexB]; exact hcok.ne) h6
  subst hf
  have hrd' := ready_same hs' hrd
  have hff : f.length = front.length := by
    have : (f ++ [vc']).length = (f0 ++ [vc0]).length := by
      have := (solveVelocities_rel (R := fun _ _ => True) (fun _ => trivial) (fun _ _ _ _ _ => trivial)
        (fun _ _ _ _ _ => trivial) h6).1
      exact this.length_eq.symm
    rw [hlf]; simpa using this
  obtain ⟨wm, hwm, hnorm, hp1, hp2⟩ := hrd'.wm
  have hms : ms' = (f.zip front).map (fun x => storeInto x.1 x.2.manifold) ++ [storeInto vc' c.manifold] := by
    rw [h4, List.zip_append hff]; simp
  obtain ⟨set1, set2⟩ := hset
  rw [hrd.indexA, hrd.indexB] at set1 set2
  rw [normalSpeed_eq hp1, bias_eq hp1 hrd'.restitution hrd'.threshold, hnorm] at set1
  have hcnt : 0 < vc'.pointCount := by rcases hp2 with h | h <;> omega
  have hpts : 0 < c.manifold.points.length := by rcases hcok.points with h | h <;> omega
  obtain ⟨b1, hb1⟩ : ∃ b1, c.manifold.points[0]? = some b1 := ⟨_, List.getElem?_eq_getElem hpts⟩
  refine ⟨f, vc', vel', (f.zip front).map (fun x => storeInto x.1 x.2.manifold), storeInto vc' c.manifold, wm,
    { b1 with normalImpulse := vc'.p1.normalImpulse, tangentImpulse := vc'.p1.tangentImpulse },
    by rw [h, hms], hwm, ?_, set1, fun h2 => ?_⟩
  · simp only [storeInto, List.getElem?_mapIdx, hb1, Option.map_some, if_pos hcnt, if_true]
  · rcases hp2 with hp2 | ⟨_, hlen, hp2, _⟩
    · omega
    · have set2 := set2 h2
      rw [normalSpeed_eq hp2, bias_eq hp2 hrd'.restitution hrd'.threshold, hnorm] at set2
      have hpts1 : 1 < c.manifold.points.length := by omega
      obtain ⟨b2, hb2⟩ : ∃ b2, c.manifold.points[1]? = some b2 := ⟨_, List.getElem?_eq_getElem hpts1⟩
      refine ⟨{ b2 with normalImpulse := vc'.p2.normalImpulse, tangentImpulse := vc'.p2.tangentImpulse }, ?_, set2⟩
      have : 1 < vc'.pointCount := by omega
      simp [storeInto, List.getElem?_mapIdx, hb2, this]

/-- C72: the contact condition. After the velocity phase of an island with at least one iteration and the block solver on,
at every point the solver keeps of the contact solved last, the bodies separate at least as fast as restitution asks
for and are pushed only if they do not separate faster. (The second point of a contact is dropped if it is nearly
redundant.) -/
theorem c72_contact_condition [Elem F] [ElemLaws F] (ph : VelocityPhase F) (pos : Arr (Pos F)) (vel : Arr (Vel F))
    (front : List (ContactIn F)) (c : ContactIn F) (hl : pos.len = vel.len) (hd : 0 ≤ ph.dtRatio) (hb : ph.block = true)
    (hi : 1 ≤ ph.iterations) (hji : ∀ v, (ph.jointInit v).len = v.len) (hj : ∀ i v, (ph.joints i v).len = v.len)
    (hc : ∀ c' ∈ front ++ [c], c'.Ok vel.len ∧ Pushing c'.manifold) :
    ∃ vcs vc vel' ms m wm p1, velocityPhase ph pos vel (front ++ [c]) = some (vcs ++ [vc], vel', ms ++ [m]) ∧
      c.worldAt pos = some wm ∧ m.points[0]? = some p1 ∧
      ContactCondition p1.normalImpulse
        (separatingSpeed wm.normal wm.p1 (pos.at' c.indexA).c (pos.at' c.indexB).c (vel'.at' c.indexA) (vel'.at' c.indexB))
        (c.bounce (separatingSpeed wm.normal wm.p1 (pos.at' c.indexA).c (pos.at' c.indexB).c (vel.at' c.indexA) (vel.at' c.indexB))) ∧
      (vc.pointCount = 2 → ∃ p2, m.points[1]? = some p2 ∧ ContactCondition p2.normalImpulse
        (separatingSpeed wm.normal wm.p2 (pos.at' c.indexA).c (pos.at' c.indexB).c (vel'.at' c.indexA) (vel'.at' c.indexB))
        (c.bounce (separatingSpeed wm.normal wm.p2 (pos.at' c.indexA).c (pos.at' c.indexB).c (vel.at' c.indexA) (vel.at' c.indexB)))) :=
  contact_condition_unit ph pos vel front c hl hd hb hi hji hj hc (worldAt_unit (hc c (by simp)).1)

/-! ## C73 -/

/-- The contact constraints that `setUp` makes of contacts without friction and restitution do not add energy. -/
theorem setUp_tame [Elem F] [ElemLaws F] {warm : Bool} {dtRatio : F} {block : Bool} {pos : Arr (Pos F)} {vel : Arr (Vel F)}
    {contacts : List (ContactIn F)} {cs : List (VConstraint F × PConstraint F)}
    (hs : setUp warm dtRatio block pos vel contacts = some cs) (hd : 0 ≤ dtRatio) (invM invI : Nat → F)
    (hc : ∀ c ∈ contacts, c.Ok vel.len ∧ c.MassesAre invM invI ∧ Pushing c.manifold)
    (hplain : ∀ c ∈ contacts, c.friction = 0 ∧ c.restitution = 0 ∧ ∀ q ∈ c.manifold.points, q.tangentImpulse = 0) :
    ∀ vc ∈ cs.map (·.1), Tame block invM invI vc := by
  have hsv := setUp_solvable hs hd (fun c h => ⟨(hc c h).1.indexA, (hc c h).1.indexB, (hc c h).2.2⟩)
  have hspec := setUp_spec hs
  intro vc hvc
  obtain ⟨i, hi⟩ := List.mem_iff_getElem?.1 hvc
  obtain ⟨hi', hvc'⟩ := List.getElem?_eq_some_iff.1 hi
  have hlen : i < contacts.length := by rw [hspec.length_eq]; exact hi'
  obtain ⟨hr, q, hq, _, hq1, hq2⟩ := (List.forall₂_iff_get.1 hspec).2 i hlen hi'
  simp only [List.get_eq_getElem] at hr hq hq1 hq2
  rw [hvc'] at hr hq1 hq2
  obtain ⟨hok, ⟨mA, mB, iA, iB⟩, _⟩ := hc _ (List.getElem_mem hlen)
  obtain ⟨pf, pr, pt⟩ := hplain _ (List.getElem_mem hlen)
  obtain ⟨_, _, hcnt, hnn⟩ := hsv vc hvc
  have ht : ∀ q ∈ (contacts[i]).manifold.points, (newPoint warm dtRatio q).tangentImpulse = 0 := by
    intro q hq
    show (if warm then dtRatio * q.tangentImpulse else 0) = 0
    rw [pt q hq]; simp
  obtain ⟨wm, _, _, hp1, hp2⟩ := hr.wm
  refine ⟨ready_prep hok hr, hnn, ⟨by rw [hr.friction, pf], by rw [hq1]; exact ht q hq, fun h2 => ?_, ?_, fun h2 => ?_⟩, hcnt,
    by rw [hr.indexA, hr.indexB]; exact hok.ne, ?_⟩
  · obtain ⟨q2, hq2m, _, hq2e⟩ := hq2 h2
    rw [hq2e]; exact ht q2 hq2m
  · rw [hp1.bias, hr.restitution, pr]; simp
  · rcases hp2 with hp2 | ⟨_, _, hp2, _⟩
    · omega
    · rw [hp2.bias, hr.restitution, pr]; simp
  · rw [hr.indexA, hr.indexB, hr.massA, hr.massB, hr.inertiaA, hr.inertiaB]
    exact ⟨mA, mB, iA, iB⟩

/-- C73: without friction, restitution or motors, the velocity iterations do not add kinetic energy: whatever velocities
they start from, the energy afterwards is at most that before (twice the energy is compared). -/
theorem c73_iterations [Elem F] [ElemLaws F] {warm : Bool} {dtRatio : F} {block : Bool} {pos : Arr (Pos F)} {vel : Arr (Vel F)}
    {contacts : List (ContactIn F)} {cs : List (VConstraint F × PConstraint F)}
    (hs : setUp warm dtRatio block pos vel contacts = some cs) (hd : 0 ≤ dtRatio) (M J invM invI : Nat → F)
    (hc : ∀ c ∈ contacts, c.Ok vel.len ∧ c.MassesAre invM invI ∧ Pushing c.manifold)
    (hplain : ∀ c ∈ contacts, c.friction = 0 ∧ c.restitution = 0 ∧ ∀ q ∈ c.manifold.points, q.tangentImpulse = 0)
    (joints : Nat → Arr (Vel F) → Arr (Vel F))
    (hj : ∀ i v, NothingDriven M J invM invI v → energy2 M J (joints i v) ≤ energy2 M J v ∧
      NothingDriven M J invM invI (joints i v))
    (n : Nat) (v0 v' : Arr (Vel F)) (hv0 : NothingDriven M J invM invI v0) (vcs : List (VConstraint F))
    (h : iterate block joints 0 n (cs.map (·.1)) v0 = some (vcs, v')) : energy2 M J v' ≤ energy2 M J v0 := by
  exact iterate_energy hj (setUp_tame hs hd invM invI hc hplain) hv0 h

/-- C73 for the whole velocity phase, without warm starting. -/
theorem c73_energy [Elem F] [ElemLaws F] (ph : VelocityPhase F) (pos : Arr (Pos F)) (vel : Arr (Vel F))
    (contacts : List (ContactIn F)) (hw : ph.warm = false) (hd : 0 ≤ ph.dtRatio) (M J invM invI : Nat → F)
    (hc : ∀ c ∈ contacts, c.Ok vel.len ∧ c.MassesAre invM invI ∧ Pushing c.manifold)
    (hplain : ∀ c ∈ contacts, c.friction = 0 ∧ c.restitution = 0 ∧ ∀ q ∈ c.manifold.points, q.tangentImpulse = 0)
    (hji : ∀ v, NothingDriven M J invM invI v → energy2 M J (ph.jointInit v) ≤ energy2 M J v ∧
      NothingDriven M J invM invI (ph.jointInit v))
    (hj : ∀ i v, NothingDriven M J invM invI v → energy2 M J (ph.joints i v) ≤ energy2 M J v ∧
      NothingDriven M J invM invI (ph.joints i v))
    (hv : NothingDriven M J invM invI vel) (vcs : List (VConstraint F)) (vel' : Arr (Vel F)) (ms : List (Manifold F))
    (h : velocityPhase ph pos vel contacts = some (vcs, vel', ms)) : energy2 M J vel' ≤ energy2 M J vel := by
  obtain ⟨cs, v1, h1, h2, h3, _⟩ := velocityPhase_some h
  rw [hw] at h2
  simp only [warmIf, Bool.false_eq_true, if_false, Option.some.injEq] at h2
  subst h2
  exact (c73_iterations h1 hd M J invM invI hc hplain ph.joints hj ph.iterations _ _ (hji _ hv).2 vcs h3).trans (hji _ hv).1

/-! ## C70 -/

/-- C70 in part: the friction impulses after an iteration are bounded by friction times the normal impulses from before
that iteration. What is missing is the bound by the normal impulses reported with them; that is false
(`c70_false`). -/
theorem c70_friction_partial [Elem F] {warm : Bool} {dtRatio : F} {block : Bool} {pos : Arr (Pos F)} {vel : Arr (Vel F)}
    {contacts : List (ContactIn F)} {cs : List (VConstraint F × PConstraint F)}
    (hs : setUp warm dtRatio block pos vel contacts = some cs) (hd : 0 ≤ dtRatio)
    (hc : ∀ c ∈ contacts, c.Ok vel.len ∧ Pushing c.manifold ∧ 0 ≤ c.friction)
    (joints : Nat → Arr (Vel F) → Arr (Vel F)) (hj : ∀ i v, (joints i v).len = v.len)
    (n : Nat) (v0 v' : Arr (Vel F)) (hl : v0.len = vel.len) (vcs : List (VConstraint F))
    (h : iterate block joints 0 (n + 1) (cs.map (·.1)) v0 = some (vcs, v')) :
    ∃ before v'', iterate block joints 0 n (cs.map (·.1)) v0 = some (before, v'') ∧
      List.Forall₂ (fun b a : VConstraint F => |a.p1.tangentImpulse| ≤ b.friction * b.p1.normalImpulse ∧
        (b.pointCount = 2 → |a.p2.tangentImpulse| ≤ b.friction * b.p2.normalImpulse)) before vcs := by
  have hsv := setUp_solvable hs hd (fun c h => ⟨(hc c h).1.indexA, (hc c h).1.indexB, (hc c h).2.1⟩)
  obtain ⟨⟨l0, v1⟩, h5, h6⟩ := iterate_succ h
  obtain ⟨l1, v2, h7, _, hsv0⟩ := iterate_total block hj n 0 (cs.map (·.1)) v0 (by rw [hl]; exact hsv)
  rw [h5] at h7
  simp only [Option.some.injEq, Prod.mk.injEq] at h7
  obtain ⟨rfl, rfl⟩ := h7
  have hsame := (iterate_rel (R := fun _ _ => True) (fun _ => trivial) (fun _ _ _ _ _ => trivial)
    (fun _ _ => trivial) (fun _ _ _ _ _ => trivial) h5).1
  have hspec := setUp_spec hs
  refine ⟨l0, v1, h5, solveVelocities_friction (fun vc hvc => ⟨?_, (hsv0 vc hvc).2.2.2⟩) h6⟩
  obtain ⟨i, hi⟩ := List.mem_iff_getElem?.1 hvc
  obtain ⟨hi2, hvc'⟩ := List.getElem?_eq_some_iff.1 hi
  have hi3 : i < (cs.map (·.1)).length := by rw [hsame.length_eq]; exact hi2
  have hi1 : i < contacts.length := by rw [hspec.length_eq]; exact hi3
  have hr := ready_same ((List.forall₂_iff_get.1 hsame).2 i hi3 hi2) ((List.forall₂_iff_get.1 hspec).2 i hi1 hi3).1
  simp only [List.get_eq_getElem] at hr
  rw [hvc'] at hr
  rw [hr.friction]
  exact (hc _ (List.getElem_mem hi1)).2.2

/-- C70, the friction law: solving the friction of a point leaves no sliding (relative to the belt speed) if the
impulse stays within its bound, and at the bound friction opposes the sliding that is left. -/
theorem c70_friction_law {vc : VConstraint F} {q : VPoint F} (hu : dot vc.normal vc.normal = 1)
    (hk : 0 < effMass vc.invMassA vc.invMassB vc.invIA vc.invIB q.rA q.rB (crossVS vc.normal 1))
    (hm : q.tangentMass = 1 / effMass vc.invMassA vc.invMassB vc.invIA vc.invIB q.rA q.rB (crossVS vc.normal 1))
    (hf : 0 ≤ vc.friction * q.normalImpulse) (s : Two F) :
    let t := (solveTangent vc q s).1.tangentImpulse
    let slide := dot (relVel (solveTangent vc q s).2.a (solveTangent vc q s).2.b q.rA q.rB) (crossVS vc.normal 1) - vc.tangentSpeed
    |t| ≤ vc.friction * q.normalImpulse ∧ (|t| < vc.friction * q.normalImpulse → slide = 0) ∧
      (0 < t → slide ≤ 0) ∧ (t < 0 → 0 ≤ slide) := by
  intro t slide
  have hb : |t| ≤ vc.friction * q.normalImpulse := solveTangent_bound hf s
  set k := effMass vc.invMassA vc.invMassB vc.invIA vc.invIB q.rA q.rB (crossVS vc.normal 1) with hkd
  set vt := dot (relVel s.a s.b q.rA q.rB) (crossVS vc.normal 1) - vc.tangentSpeed with hvt
  have hut : dot (crossVS vc.normal 1) (crossVS vc.normal 1) = 1 := by
    simp only [dot, crossVS] at hu ⊢; linear_combination hu
  have hslide : slide = vt + (t - q.tangentImpulse) * k := by
    show dot (relVel (vc.push q ((t - q.tangentImpulse) * crossVS vc.normal 1) s).a
      (vc.push q ((t - q.tangentImpulse) * crossVS vc.normal 1) s).b q.rA q.rB) (crossVS vc.normal 1) - vc.tangentSpeed = _
    simp only [hvt, hkd, VConstraint.push, push, relVel, effMass, dot, cross, crossSV, Vec2.add_x, Vec2.add_y,
      Vec2.sub_x, Vec2.sub_y, Vec2.smul_x, Vec2.smul_y] at hut ⊢
    linear_combination ((t - q.tangentImpulse) * (vc.invMassA + vc.invMassB)) * hut
  have ht : t = b2clamp (q.tangentImpulse + q.tangentMass * -vt) (-(vc.friction * q.normalImpulse)) (vc.friction * q.normalImpulse) := rfl
  set free := q.tangentImpulse + q.tangentMass * -vt with hfree
  have hfk : (free - q.tangentImpulse) * k = -vt := by
    rw [hfree, hm]; field_simp; ring
  have e : slide = (t - free) * k := by rw [hslide]; linear_combination hfk
  have hcl : free ≤ -(vc.friction * q.normalImpulse) ∧ t = -(vc.friction * q.normalImpulse) ∨ t = free ∨
      vc.friction * q.normalImpulse ≤ free ∧ t = vc.friction * q.normalImpulse := by
    rw [ht]
    unfold b2clamp b2max b2min
    split_ifs with h1 h2 h3
    · exact .inl ⟨by linarith, rfl⟩
    · exact .inr (.inl rfl)
    · exact .inr (.inr ⟨by linarith, by linarith⟩)
    · exact .inr (.inr ⟨by linarith, rfl⟩)
  refine ⟨hb, ?_, ?_, ?_⟩
  · intro hlt
    rw [abs_lt] at hlt
    rcases hcl with ⟨_, h⟩ | h | ⟨_, h⟩
    · linarith [hlt.1]
    · rw [e, h, sub_self, zero_mul]
    · linarith [hlt.2]
  · intro h0
    rw [e]
    have : t - free ≤ 0 := by rcases hcl with ⟨_, h⟩ | h | ⟨h', h⟩ <;> linarith
    exact mul_nonpos_of_nonpos_of_nonneg this hk.le
  · intro h0
    rw [e]
    have : 0 ≤ t - free := by rcases hcl with ⟨h', h⟩ | h | ⟨h', h⟩ <;> linarith
    exact mul_nonneg this hk.le

end

/-! ## Examples -/

/-- A box of mass 1 and inertia 1 on another: two contact points, pushed before. -/
noncomputable def exContact : ContactIn ℝ where
  manifold := ⟨[⟨⟨-1, 0⟩, 1, 0, ⟨⟨0, 0, 0, 1⟩⟩⟩, ⟨⟨1, 0⟩, 2, 0, ⟨⟨1, 0, 0, 1⟩⟩⟩], ⟨0, 1⟩, ⟨0, 0⟩, .faceA⟩
  friction := 0
  restitution := 0
  threshold := 1
  tangentSpeed := 0
  radiusA := 1 / 100
  radiusB := 1 / 100
  indexA := 0
  indexB := 1
  invMassA := 1
  invMassB := 1
  invIA := 1
  invIB := 1
  localCenterA := ⟨0, 0⟩
  localCenterB := ⟨0, 0⟩

theorem exContact_ok : exContact.Ok 2 where
  points := .inr rfl
  circles := fun h => by cases h
  indexA := by decide
  indexB := by decide
  ne := by decide
  massA := by simp [exContact]
  massB := by simp [exContact]
  mass := by simp [exContact]
  inertiaA := by simp [exContact]
  inertiaB := by simp [exContact]
  normal := by simp [exContact]

theorem exContact_pushing : Pushing exContact.manifold := by
  intro p hp
  simp only [exContact, List.mem_cons, List.not_mem_nil, or_false] at hp
  rcases hp with rfl | rfl <;> norm_num

/-- The bodies fly at each other and turn. -/
noncomputable def exVel : Arr (Vel ℝ) := ⟨2, fun i => if i = 0 then ⟨⟨0, 3⟩, 1⟩ else ⟨⟨1, -5⟩, 2⟩⟩
noncomputable def exPos : Arr (Pos ℝ) := ⟨2, fun i => if i = 0 then ⟨⟨0, 0⟩, 0⟩ else ⟨⟨0, 1⟩, 0⟩⟩
noncomputable def exPhase : VelocityPhase ℝ := ⟨true, 1, 8, true, fun v => v, fun _ v => v⟩

/-- The hypotheses of `c69_contacts_only_push`, `c71_momentum`, `c71_angular_momentum` and (with any front) of
`c72_contact_condition` are met by two contacts of two colliding boxes. -/
example : exPos.len = exVel.len ∧ 0 ≤ exPhase.dtRatio ∧ exPhase.block = true ∧ 1 ≤ exPhase.iterations ∧
    (∀ v, (exPhase.jointInit v).len = v.len) ∧ (∀ i v, (exPhase.joints i v).len = v.len) ∧
    (∀ c ∈ [exContact, exContact], c.Ok exVel.len ∧ Pushing c.manifold ∧ c.MassesAre (fun _ => 1) (fun _ => 1)) ∧
    (∀ _ : Nat, (1 : ℝ) * 1 = 1) ∧ (∀ i v, momentum (fun _ => 1) (exPhase.joints i v) = momentum (fun _ => (1 : ℝ)) v) := by
  refine ⟨rfl, by simp [exPhase], rfl, by decide, fun _ => rfl, fun _ _ => rfl, fun c hc => ?_, fun _ => by norm_num, fun _ _ => rfl⟩
  simp only [List.mem_cons, List.not_mem_nil, or_false, or_self] at hc
  subst hc
  exact ⟨exContact_ok, exContact_pushing, rfl, rfl, rfl, rfl⟩

/-- And they have a velocity phase, so that the conclusions of C71 are about something. -/
example : ∃ vcs vel' ms, velocityPhase exPhase exPos exVel [exContact, exContact] = some (vcs, vel', ms) := by
  obtain ⟨a, b, c, h, _⟩ := c69_contacts_only_push exPhase exPos exVel [exContact, exContact] rfl (by simp [exPhase])
    (fun _ => rfl) (fun _ _ => rfl)
    (fun c hc => by simp only [List.mem_cons, List.not_mem_nil, or_false, or_self] at hc; subst hc; exact exContact_ok)
    (fun c hc => by simp only [List.mem_cons, List.not_mem_nil, or_false, or_self] at hc; subst hc; exact exContact_pushing)
  exact ⟨a, b, c, h⟩

/-- The hypotheses of `c73_iterations` and `c73_energy` are met by the same boxes; both move and turn. -/
example : NothingDriven (fun _ => 1) (fun _ => 1) (fun _ => 1) (fun _ => (1 : ℝ)) exVel ∧
    (exContact.friction = 0 ∧ exContact.restitution = 0 ∧ ∀ q ∈ exContact.manifold.points, q.tangentImpulse = 0) := by
  refine ⟨fun i _ => ⟨.inl (by norm_num), .inl (by norm_num)⟩, rfl, rfl, fun q hq => ?_⟩
  simp only [exContact, List.mem_cons, List.not_mem_nil, or_false] at hq
  rcases hq with rfl | rfl <;> rfl

/-- A box on the ground, which is fixed. -/
noncomputable def exGround : ContactIn ℝ := { exContact with invMassA := 0, invIA := 0 }

/-- The hypotheses of `c75_velocity`, `c75_position` and `c75_toi` are met by it, for the ground as body `i`. -/
example : (exGround.Ok exVel.len ∧ exGround.MassesAre (fun i => if i = 0 then 0 else 1) (fun i => if i = 0 then 0 else 1)) ∧
    ((if (0 : Nat) = 0 then (0 : ℝ) else 1) = 0) ∧
    ∃ cs, setUp true 1 true exPos exVel [exGround] = some cs := by
  refine ⟨⟨⟨.inr rfl, fun h => (by cases h), by decide, by decide, by decide, ?_, ?_, ?_, ?_, ?_, ?_⟩, ?_⟩, rfl, ?_⟩
  · simp [exGround]
  · simp [exGround, exContact]
  · simp [exGround, exContact]
  · simp [exGround]
  · simp [exGround, exContact]
  · simp [exGround, exContact]
  · simp [exGround, exContact, ContactIn.MassesAre]
  · refine setUp_total rfl fun c hc => ?_
    simp only [List.mem_singleton] at hc
    subst hc
    exact ⟨.inr rfl, by decide, by decide⟩

/-- The hypotheses of `c74_centre_of_mass` and `c74_bounded` are met by the colliding boxes. -/
example : ∃ cs, setUp true 1 true exPos exVel [exContact, exContact] = some cs := by
  refine setUp_total rfl fun c hc => ?_
  simp only [List.mem_cons, List.not_mem_nil, or_false, or_self] at hc
  subst hc
  exact ⟨exContact_ok.points, exContact_ok.indexA, exContact_ok.indexB⟩

/-- The world manifold of the boxes when the centre of the upper one is `h` above the ground: both points are at
separation `h - 2 / 100`. -/
theorem exContact_world (h : ℝ) :
    ∃ wm, exContact.worldAt ⟨2, fun i => if i = 0 then ⟨⟨0, 0⟩, 0⟩ else ⟨⟨0, h⟩, 0⟩⟩ = some wm ∧ wm.s1 = h - 2 / 100 ∧
      wm.s2 = h - 2 / 100 := by
  refine ⟨_, rfl, ?_, ?_⟩
  · simp [exContact, Pos.xf, Rot.ofAngle, Rot.mulV, Xf.mulV, worldPoint, dot, Elem.sin, Elem.cos]; ring
  · simp [exContact, Pos.xf, Rot.ofAngle, Rot.mulV, Xf.mulV, worldPoint, dot, Elem.sin, Elem.cos]; ring

/-- The hypotheses of `c74_rest` are met by the boxes just touching. -/
example : let p : Arr (Pos ℝ) := ⟨2, fun i => if i = 0 then ⟨⟨0, 0⟩, 0⟩ else ⟨⟨0, 16 / 1000⟩, 0⟩⟩
    exContact.Ok p.len ∧ exContact.CentresApart p ∧
    ∃ wm, exContact.worldAt p = some wm ∧ -linearSlop ≤ wm.s1 ∧ (exContact.manifold.points.length = 2 → -linearSlop ≤ wm.s2) := by
  obtain ⟨wm, h1, h2, h3⟩ := exContact_world (16 / 1000)
  refine ⟨exContact_ok, fun h => (by cases h), wm, h1, ?_, fun _ => ?_⟩
  · rw [h2]; unfold linearSlop; norm_num
  · rw [h3]; unfold linearSlop; norm_num

/-- A box with one corner in the fixed ground; neither turns. -/
noncomputable def exCorner (n t friction : ℝ) : ContactIn ℝ :=
  { exContact with
    manifold := ⟨[⟨⟨0, 0⟩, n, t, ⟨⟨0, 0, 0, 1⟩⟩⟩], ⟨0, 1⟩, ⟨0, 0⟩, .faceA⟩
    invMassA := 0
    invIA := 0
    invIB := 0
    friction := friction }

theorem exCorner_ok (n t f : ℝ) : (exCorner n t f).Ok 2 where
  points := .inl rfl
  circles := fun h => by cases h
  indexA := by simp [exCorner, exContact]
  indexB := by simp [exCorner, exContact]
  ne := by simp [exCorner, exContact]
  massA := by simp [exCorner]
  massB := by simp [exCorner, exContact]
  mass := by simp [exCorner, exContact]
  inertiaA := by simp [exCorner]
  inertiaB := by simp [exCorner]
  normal := by simp [exCorner]

/-- The hypotheses of `c74_no_overshoot` are met by it when the corner is one unit deep. -/
example : let p : Arr (Pos ℝ) := ⟨2, fun i => if i = 0 then ⟨⟨0, 0⟩, 0⟩ else ⟨⟨0, -1⟩, 0⟩⟩
    ∃ cs ok p' wm wm', setUp true 1 true p exVel [exCorner 1 0 0] = some cs ∧
      (exCorner 1 0 0).worldAt p = some wm ∧ (exCorner 1 0 0).worldAt p' = some wm' ∧ wm.s1 < -linearSlop ∧
      solvePositions (cs.map (·.2)) p = some (ok, p') ∧ (exCorner 1 0 0).CentresApart p ∧ (exCorner 1 0 0).CentresApart p' := by
  intro p
  obtain ⟨cs, hs⟩ := setUp_total (warm := true) (dtRatio := 1) (block := true) (pos := p) (vel := exVel)
    (contacts := [exCorner 1 0 0]) rfl (fun c hc => by
      simp only [List.mem_singleton] at hc; subst hc; exact ⟨.inl rfl, by decide, by decide⟩)
  obtain ⟨ok, p', h, _⟩ := c74_bounded hs p rfl (fun c hc => by
      simp only [List.mem_singleton] at hc; subst hc; exact exCorner_ok 1 0 0)
  obtain ⟨wm', h'⟩ := worldManifold_total (m := (exCorner 1 0 0).manifold) (.inl rfl)
    ((p'.at' 0).xf ⟨0, 0⟩) ((p'.at' 1).xf ⟨0, 0⟩) (1 / 100) (1 / 100)
  refine ⟨cs, ok, p', _, wm', hs, rfl, h', ?_, h, fun h => (by cases h), fun h => (by cases h)⟩
  simp [exCorner, exContact, Pos.xf, Rot.ofAngle, Rot.mulV, Xf.mulV, worldPoint, dot, Elem.sin, Elem.cos, p, linearSlop]
  norm_num

/-- The hypotheses of `c70_friction_partial` are met by the corner with friction. -/
example : (exCorner 1 0 1).Ok exVel.len ∧ Pushing (exCorner 1 0 1).manifold ∧ 0 ≤ (exCorner 1 0 1).friction := by
  refine ⟨exCorner_ok 1 0 1, fun q hq => ?_, by simp [exCorner]⟩
  simp only [exCorner, List.mem_singleton] at hq
  subst hq; norm_num

/-- The hypotheses of `c70_friction_law` are met by a sliding body on a fixed one, pressed on with impulse 1. -/
example : ∃ (vc : VConstraint ℝ) (q : VPoint ℝ), dot vc.normal vc.normal = 1 ∧
    0 < effMass vc.invMassA vc.invMassB vc.invIA vc.invIB q.rA q.rB (crossVS vc.normal 1) ∧
    q.tangentMass = 1 / effMass vc.invMassA vc.invMassB vc.invIA vc.invIB q.rA q.rB (crossVS vc.normal 1) ∧
    0 < vc.friction * q.normalImpulse := by
  refine ⟨⟨VPoint.zero, VPoint.zero, ⟨0, 1⟩, ⟨⟨0, 0⟩, ⟨0, 0⟩⟩, ⟨⟨0, 0⟩, ⟨0, 0⟩⟩, 0, 1, 0, 1, 0, 0, 1, 0, 1, 0, 1⟩,
    ⟨⟨0, 0⟩, ⟨0, 0⟩, 1, 0, 1, 1, 0⟩, ?_, ?_, ?_, ?_⟩ <;>
    simp [dot, effMass, cross, crossVS, VPoint.zero]

/-- C70 is false as stated: a box slides along the ground and leaves it; the contact was pushed with impulse 1 in the step
before. Its reported friction impulse is 1 although the reported normal impulse is 0 and the friction
coefficient is 1. -/
theorem c70_false : ∃ (ph : VelocityPhase ℝ) (pos : Arr (Pos ℝ)) (vel : Arr (Vel ℝ)) (c : ContactIn ℝ),
    c.Ok vel.len ∧ Pushing c.manifold ∧ 0 ≤ c.friction ∧
    ∃ vcs vel' m p, velocityPhase ph pos vel [c] = some (vcs, vel', [m]) ∧ p ∈ m.points ∧
      c.friction * p.normalImpulse < |p.tangentImpulse| := by
  let ph : VelocityPhase ℝ := ⟨true, 1, 1, true, fun v => v, fun _ v => v⟩
  let pos : Arr (Pos ℝ) := ⟨2, fun i => if i = 0 then ⟨⟨0, 0⟩, 0⟩ else ⟨⟨0, 0⟩, 0⟩⟩
  let vel : Arr (Vel ℝ) := ⟨2, fun i => if i = 0 then ⟨⟨0, 0⟩, 0⟩ else ⟨⟨1, 10⟩, 0⟩⟩
  refine ⟨ph, pos, vel, exCorner 1 0 1, exCorner_ok 1 0 1, fun q hq => ?_, by simp [exCorner], ?_⟩
  · simp only [exCorner, List.mem_singleton] at hq
    subst hq; norm_num
  · refine ⟨_, _, _, _, rfl, List.mem_singleton.2 rfl, ?_⟩
    norm_num [exCorner, exContact, solveTangent, solveNormal, initPoint, newPoint, worldPoint, relVel, Pos.xf, Rot.ofAngle, Rot.mulV,
      Xf.mulV, dot, cross, crossSV, crossVS, effMass, ph, pos, vel, Elem.sin, Elem.cos, VConstraint.push, push, warmPoint, VPoint.zero,
      b2max, b2min, b2clamp, upd]

end B2.Props
