import Verif.Proofs.Momentum

/-! # Position correction and the centre of mass -/
set_option linter.unusedSectionVars false
namespace B2
open Spec
section
variable {F : Type} [Field F] [LinearOrder F] [IsStrictOrderedRing F] [Elem F]

/-- The sum of the positions with weights `M`. -/
def centre (M : Nat → F) (pos : Arr (Pos F)) : Vec2 F :=
  ⟨∑ i ∈ Finset.range pos.len, M i * (pos.at' i).c.x, ∑ i ∈ Finset.range pos.len, M i * (pos.at' i).c.y⟩

theorem centre_same {M : Nat → F} {p p' : Arr (Pos F)} (hl : p'.len = p.len) (h : ∀ i, M i ≠ 0 → p'.at' i = p.at' i) : centre M p' = centre M p := by
  unfold centre
  rw [hl]
  congr 1 <;>
  · refine Finset.sum_congr rfl fun i _ => ?_
    by_cases hM : M i = 0
    · rw [hM, zero_mul, zero_mul]
    · rw [h i hM]

theorem centre_two {M : Nat → F} {p : Arr (Pos F)} {a b : Nat} {x y : Pos F} {P : Vec2 F} {mA mB : F} (ha : a < p.len) (hb : b < p.len) (hne : a ≠ b) (hM : M a * mA = M b * mB)
    (hx : x.c = (p.at' a).c - mA * P) (hy : y.c = (p.at' b).c + mB * P) : centre M ⟨p.len, upd (upd p.at' a x) b y⟩ = centre M p := by
  unfold centre
  simp only
  rw [sum_upd2 p.len (fun i (v : Pos F) => M i * v.c.x) p.at' _ _ ha hb hne,
    sum_upd2 p.len (fun i (v : Pos F) => M i * v.c.y) p.at' _ _ ha hb hne, hx, hy]
  simp only [Vec2.sub_x, Vec2.sub_y, Vec2.add_x, Vec2.add_y, Vec2.smul_x, Vec2.smul_y, Vec2.mk.injEq]
  constructor
  · linear_combination (-P.x) * hM
  · linear_combination (-P.y) * hM

/-- The bodies of a frame are moved against each other. -/
def Even (f : PairFrame F) (p q : TwoP F) : Prop := ∃ P : Vec2 F, q.a.c = p.a.c - f.a.invMass * P ∧ q.b.c = p.b.c + f.b.invMass * P

theorem Even.still (f : PairFrame F) {p q : TwoP F} (h1 : q.a.c = p.a.c) (h2 : q.b.c = p.b.c) : Even f p q :=
  ⟨⟨0, 0⟩, by rw [h1]; ext <;> simp, by rw [h2]; ext <;> simp⟩
theorem Even.trans {f : PairFrame F} {p q r : TwoP F} (h : Even f p q) (h' : Even f q r) : Even f p r := by
  obtain ⟨P, a1, a2⟩ := h
  obtain ⟨Q, b1, b2⟩ := h'
  refine ⟨P + Q, ?_, ?_⟩
  · rw [b1, a1]; ext <;> simp <;> ring
  · rw [b2, a2]; ext <;> simp <;> ring
theorem move_even (f : PairFrame F) (x : Vec2 F) (la lb : F) (p : TwoP F) : Even f p (f.move x la lb p) := ⟨x, rfl, rfl⟩

theorem Revolute.solvePos_even (j : Revolute F) (p : TwoP F) : Even j.frame p (j.solvePos p).1 := by
  have h1 : Even j.frame p (j.posLimit p).1 := by
    unfold Revolute.posLimit
    split_ifs
    · exact .still _ rfl rfl
    · exact .still _ rfl rfl
  exact h1.trans (move_even _ _ _ _ _)

theorem DistanceJ.solvePos_even (j : DistanceJ F) (p : TwoP F) : Even j.frame p (j.solvePos p).1 := by
  unfold DistanceJ.solvePos
  dsimp only
  split
  · exact .still _ rfl rfl
  · exact move_even _ _ _ _ _

theorem Prismatic.solvePos_even (j : Prismatic F) (p : TwoP F) : Even j.frame p (j.solvePos p).1 := move_even _ _ _ _ _

theorem Weld.solvePos_even (j : Weld F) (p : TwoP F) : Even j.frame p (j.solvePos p).1 := by
  unfold Weld.solvePos
  dsimp only
  split_ifs <;> exact move_even _ _ _ _ _

theorem Wheel.solvePos_even (j : Wheel F) (p : TwoP F) : Even j.frame p (j.solvePos p).1 := by
  have h1 : Even j.frame p (j.posLimit p).1 := by
    unfold Wheel.posLimit
    dsimp only
    split_ifs
    · exact move_even _ _ _ _ _
    · exact move_even _ _ _ _ _
    · exact .still _ rfl rfl
    · exact .still _ rfl rfl
  exact h1.trans (move_even _ _ _ _ _)

variable {bodies : Nat → JBody F} {pos0 : Arr (Pos F)} {M : Nat → F}

theorem onTwoP_even {pos : Arr (Pos F)} {fr : PairFrame F} {f : TwoP F → TwoP F × Bool} {r : Arr (Pos F) × Bool} (hk : ∀ p, Even fr p (f p).1) (hne : fr.a.index ≠ fr.b.index)
    (hM : M fr.a.index * fr.a.invMass = M fr.b.index * fr.b.invMass) (e : onTwoP pos fr.a.index fr.b.index f = some r) : centre M r.1 = centre M pos := by
  obtain ⟨h1, h2⟩ := onTwoP_some e
  unfold onTwoP at e
  rw [loadTwoP_of h1 h2] at e
  simp only [Option.bind_eq_bind, Option.bind_some] at e
  rw [storeTwoP_of _ h1 h2] at e
  cases e
  obtain ⟨P, k1, k2⟩ := hk ⟨pos.at' fr.a.index, pos.at' fr.b.index⟩
  exact centre_two h1 h2 hne hM k1 k2

theorem Level.solvePos {j : Joint F} {pos : Arr (Pos F)} {r : Arr (Pos F) × Bool} (hj : Level bodies M j) (ha : j.Armed bodies pos0) (h : j.solvePos pos = some r) :
    centre M r.1 = centre M pos := by
  rcases hj with ⟨hp, hne, hM⟩ | h0
  · cases j with
    | revolute j => exact onTwoP_even j.solvePos_even (by rw [ha.1]; exact hne) (by rw [ha.1]; exact hM) h
    | prismatic j => exact onTwoP_even j.solvePos_even (by rw [ha.1]; exact hne) (by rw [ha.1]; exact hM) h
    | distance j => exact onTwoP_even j.solvePos_even (by rw [ha.1]; exact hne) (by rw [ha.1]; exact hM) h
    | weld j => exact onTwoP_even j.solvePos_even (by rw [ha.1]; exact hne) (by rw [ha.1]; exact hM) h
    | wheel j => exact onTwoP_even j.solvePos_even (by rw [ha.1]; exact hne) (by rw [ha.1]; exact hM) h
    | friction j => cases h; rfl
    | motor j => cases h; rfl
    | pulley j => exact (Bool.false_ne_true hp).elim
    | mouse j => exact (Bool.false_ne_true hp).elim
    | gear j => exact (Bool.false_ne_true hp).elim
  · have hs := Joint.solvePos_shifted ha h
    refine centre_same hs.len fun i hi => hs.other i fun b hb => ?_
    obtain ⟨c, hc, rfl⟩ := List.mem_map.1 hb
    rintro rfl
    exact hi (h0 c hc)

theorem solvePosJoints_centre : ∀ {l : List (Joint F)} {pos : Arr (Pos F)} {r : Arr (Pos F) × Bool}, (∀ j ∈ l, Level bodies M j ∧ j.Armed bodies pos0) →
    solvePosJoints l pos = some r → centre M r.1 = centre M pos
  | [], pos, r, _, h => by
    simp only [solvePosJoints, Option.some.injEq] at h
    subst h; rfl
  | j :: l, pos, r, hT, h => by
    simp only [solvePosJoints, Option.bind_eq_bind, Option.bind_eq_some_iff] at h
    obtain ⟨q, h1, r', h2, h3⟩ := h
    simp only [Option.pure_def, Option.some.injEq] at h3
    subst h3
    have hj := hT j (List.mem_cons_self ..)
    exact (solvePosJoints_centre (fun x hx => hT x (List.mem_cons_of_mem _ hx)) h2).trans (hj.1.solvePos hj.2 h1)

theorem islandPositions_centre {l : List (PConstraint F)} (hl : ∀ pc ∈ l, pc.indexA ≠ pc.indexB ∧ M pc.indexA * pc.invMassA = M pc.indexB * pc.invMassB) {js : List (Joint F)}
    (hj : ∀ j ∈ js, Level bodies M j ∧ j.Armed bodies pos0) :
    ∀ {k : Nat} {pos : Arr (Pos F)} {r : Arr (Pos F) × Bool}, islandPositions js l k pos = some r → centre M r.1 = centre M pos
  | 0, pos, r, h => by
    simp only [islandPositions, Option.some.injEq] at h
    subst h; rfl
  | k + 1, pos, r, h => by
    simp only [islandPositions, Option.bind_eq_bind, Option.bind_eq_some_iff] at h
    obtain ⟨q, h1, q', h2, h3⟩ := h
    simp only [solvePositions, Option.bind_eq_bind, Option.bind_eq_some_iff] at h1
    obtain ⟨x, h4, h5⟩ := h1
    simp only [Option.pure_def, Option.some.injEq] at h5
    subst h5
    have a := solvePosLoop_rel (R := fun p p' => centre M p' = centre M p) (fun _ => rfl) (fun _ _ _ h h' => h'.trans h) (fun pc hpc p s' m i1 i2 hs => by
      obtain ⟨P, ta, tb, k1, k2⟩ := hs
      exact centre_two i1 i2 (hl pc hpc).1 (hl pc hpc).2 (by rw [k1]) (by rw [k2])) h4
    have b := solvePosJoints_centre hj h2
    split at h3
    · simp only [Option.pure_def, Option.some.injEq] at h3
      subst h3
      exact b.trans a
    · exact (islandPositions_centre hl hj h3).trans (b.trans a)

theorem position_centre {E : Engine F} {w : World F} {isl : Island} {step : TimeStep F} {W : Nat → F} (hs : Seated E) (hf : Fitted w isl)
    (hb : Balanced E w isl W) {states : List (BState F)} {r : Arr (Pos F) × Bool} (e : E.position w isl step states = some r) :
    centre (fun i => W (isl.bodies.getD i 0)) r.1 = centre (fun i => W (isl.bodies.getD i 0)) (World.positionsOf states) := by
  unfold Engine.position at e
  simp only [Option.bind_eq_bind, Option.bind_eq_some_iff] at e
  obtain ⟨q, e1, cs, e2, pcs, e3, e4⟩ := e
  have hj := (velocity_balance hs hf hb e1).1
  have hW : ∀ b ∈ isl.bodies, W (isl.bodies.getD (w.phys b).islandIndex.toNat 0) = W b := fun b hbm => by
    rw [List.getD_eq_getElem?_getD, hf.place hbm]; rfl
  refine islandPositions_centre (fun pc hpc => ?_) hj e4
  obtain ⟨c, hcm, k1, k2, k3, k4, -⟩ := newConstraints_each e3 hpc
  obtain ⟨d, hd, bA, bB, rd⟩ := contactsIn_each hf e2 hcm
  rw [k1, k2, k3, k4, rd.indexA, rd.indexB, rd.massA, rd.massB]
  refine ⟨fun h => rd.ne (hf.same (hf.place rd.memB) rd.memA h), ?_⟩
  rw [hW _ rd.memA, hW _ rd.memB]
  exact hb.contacts d hd _ _ rd.bodyA rd.bodyB

end
end B2
