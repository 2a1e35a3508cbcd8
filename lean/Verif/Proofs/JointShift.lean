import Verif.Spec.JointShift
import Mathlib.Tactic.Ring

/-!
# Joints do not see where the origin is
-/
set_option linter.unusedSectionVars false
namespace B2

section
variable {F : Type} [Field F] [LinearOrder F] [IsStrictOrderedRing F] [Elem F]

/-- Two positions seen from `o`. -/
def TwoP.seenFrom (o : Vec2 F) (p : TwoP F) : TwoP F := ⟨p.a.seenFrom o, p.b.seenFrom o⟩
/-- Four positions seen from `o`. -/
def FourP.seenFrom (o : Vec2 F) (p : FourP F) : FourP F := ⟨p.a.seenFrom o, p.b.seenFrom o, p.c.seenFrom o, p.d.seenFrom o⟩

theorem seen_aa (o : Vec2 F) (p : TwoP F) : (p.seenFrom o).a.a = p.a.a := rfl
theorem seen_ba (o : Vec2 F) (p : TwoP F) : (p.seenFrom o).b.a = p.b.a := rfl
theorem seen_gap (o : Vec2 F) (p : TwoP F) (rA rB : Vec2 F) : (p.seenFrom o).b.c + rB - (p.seenFrom o).a.c - rA = p.b.c + rB - p.a.c - rA := by
  ext <;> simp [TwoP.seenFrom, Pos.seenFrom] <;> ring
theorem seen_diff (o : Vec2 F) (p : TwoP F) : (p.seenFrom o).b.c - (p.seenFrom o).a.c = p.b.c - p.a.c := by
  ext <;> simp [TwoP.seenFrom, Pos.seenFrom]
theorem seen_move (o : Vec2 F) (f : PairFrame F) (p : Vec2 F) (a b : F) (s : TwoP F) : f.move p a b (s.seenFrom o) = (f.move p a b s).seenFrom o := by
  unfold PairFrame.move TwoP.seenFrom Pos.seenFrom
  dsimp only
  congr 2 <;> ext <;> simp <;> ring
theorem seen_world_a (o : Vec2 F) (p : TwoP F) (r g : Vec2 F) : (p.seenFrom o).a.c + r - (g - o) = p.a.c + r - g := by
  ext <;> simp [TwoP.seenFrom, Pos.seenFrom] <;> ring
theorem seen_world_b (o : Vec2 F) (p : TwoP F) (r g : Vec2 F) : (p.seenFrom o).b.c + r - (g - o) = p.b.c + r - g := by
  ext <;> simp [TwoP.seenFrom, Pos.seenFrom] <;> ring

/-! ## Preparing -/

theorem Revolute.prepare_seen (bodies : Nat → JBody F) (j : Revolute F) (o : Vec2 F) (p : TwoP F) : j.prepare bodies (p.seenFrom o) = j.prepare bodies p := rfl
theorem Prismatic.prepare_seen (bodies : Nat → JBody F) (j : Prismatic F) (o : Vec2 F) (p : TwoP F) : j.prepare bodies (p.seenFrom o) = j.prepare bodies p := by
  simp only [Prismatic.prepare, seen_aa, seen_ba, seen_diff]
theorem DistanceJ.prepare_seen (bodies : Nat → JBody F) (j : DistanceJ F) (o : Vec2 F) (p : TwoP F) : j.prepare bodies (p.seenFrom o) = j.prepare bodies p := by
  simp only [DistanceJ.prepare, seen_aa, seen_ba, seen_gap]
theorem Weld.prepare_seen (st : JStep F) (bodies : Nat → JBody F) (j : Weld F) (o : Vec2 F) (p : TwoP F) : j.prepare st bodies (p.seenFrom o) = j.prepare st bodies p := rfl
theorem Wheel.prepare_seen (st : JStep F) (bodies : Nat → JBody F) (j : Wheel F) (o : Vec2 F) (p : TwoP F) : j.prepare st bodies (p.seenFrom o) = j.prepare st bodies p := by
  simp only [Wheel.prepare, seen_aa, seen_ba, seen_gap]
theorem FrictionJ.prepare_seen (bodies : Nat → JBody F) (j : FrictionJ F) (o : Vec2 F) (p : TwoP F) : j.prepare bodies (p.seenFrom o) = j.prepare bodies p := rfl
theorem MotorJ.prepare_seen (bodies : Nat → JBody F) (j : MotorJ F) (o : Vec2 F) (p : TwoP F) : j.prepare bodies (p.seenFrom o) = j.prepare bodies p := by
  simp only [MotorJ.prepare, seen_aa, seen_ba, seen_gap]
theorem Pulley.prepare_seen (bodies : Nat → JBody F) (j : Pulley F) (o : Vec2 F) (p : TwoP F) :
    (j.shiftOrigin o).prepare bodies (p.seenFrom o) = (j.prepare bodies p).shiftOrigin o := by
  simp only [Pulley.prepare, Pulley.shiftOrigin, seen_aa, seen_ba, seen_world_a, seen_world_b]
theorem Mouse.prepare_seen (st : JStep F) (bodies : Nat → JBody F) (j : Mouse F) (o : Vec2 F) (p : Pos F) :
    (j.shiftOrigin o).prepare st bodies (p.seenFrom o) = (j.prepare st bodies p).shiftOrigin o := by
  have e : ∀ r t : Vec2 F, (p.seenFrom o).c + r - (t - o) = p.c + r - t := fun r t => by ext <;> simp [Pos.seenFrom] <;> ring
  have e' : (p.seenFrom o).a = p.a := rfl
  simp only [Mouse.prepare, Mouse.shiftOrigin, e, e']
  rfl
theorem Gear.prepare_seen (bodies : Nat → JBody F) (j : Gear F) (o : Vec2 F) (p : FourP F) : j.prepare bodies (p.seenFrom o) = j.prepare bodies p := rfl

theorem Pulley.initVel_seen (st : JStep F) (bodies : Nat → JBody F) (j : Pulley F) (o : Vec2 F) (p : TwoP F) (s : Two F) :
    (j.shiftOrigin o).initVel st bodies (p.seenFrom o) s = ((j.initVel st bodies p s).1.shiftOrigin o, (j.initVel st bodies p s).2) := by
  unfold Pulley.initVel
  rw [Pulley.prepare_seen]
  unfold Pulley.warm
  split <;> rfl
theorem Mouse.initVel_seen (st : JStep F) (bodies : Nat → JBody F) (j : Mouse F) (o : Vec2 F) (p : Pos F) (s : Vel F) :
    (j.shiftOrigin o).initVel st bodies (p.seenFrom o) s = ((j.initVel st bodies p s).1.shiftOrigin o, (j.initVel st bodies p s).2) := by
  unfold Mouse.initVel
  rw [Mouse.prepare_seen]
  unfold Mouse.warm
  dsimp only
  split <;> rfl

/-! ## Position correction -/

theorem Revolute.solvePos_seen (j : Revolute F) (o : Vec2 F) (p : TwoP F) : j.solvePos (p.seenFrom o) = ((j.solvePos p).1.seenFrom o, (j.solvePos p).2) := by
  have h1 : ∀ q : TwoP F, j.posPoint (q.seenFrom o) = ((j.posPoint q).1.seenFrom o, (j.posPoint q).2) := fun q => by
    simp only [Revolute.posPoint, seen_aa, seen_ba, seen_gap, seen_move]
  have h2 : j.posLimit (p.seenFrom o) = ((j.posLimit p).1.seenFrom o, (j.posLimit p).2) := by
    unfold Revolute.posLimit
    split <;> rfl
  simp only [Revolute.solvePos, h1, h2]
theorem Prismatic.solvePos_seen (j : Prismatic F) (o : Vec2 F) (p : TwoP F) : j.solvePos (p.seenFrom o) = ((j.solvePos p).1.seenFrom o, (j.solvePos p).2) := by
  simp only [Prismatic.solvePos, seen_aa, seen_ba, seen_gap, seen_move]
  rfl
theorem DistanceJ.solvePos_seen (j : DistanceJ F) (o : Vec2 F) (p : TwoP F) : j.solvePos (p.seenFrom o) = ((j.solvePos p).1.seenFrom o, (j.solvePos p).2) := by
  simp only [DistanceJ.solvePos, seen_aa, seen_ba, seen_gap, seen_move]
  split <;> rfl
theorem Weld.solvePos_seen (j : Weld F) (o : Vec2 F) (p : TwoP F) : j.solvePos (p.seenFrom o) = ((j.solvePos p).1.seenFrom o, (j.solvePos p).2) := by
  simp only [Weld.solvePos, seen_aa, seen_ba, seen_gap, seen_move]
  split <;> rfl
theorem Wheel.solvePos_seen (j : Wheel F) (o : Vec2 F) (p : TwoP F) : j.solvePos (p.seenFrom o) = ((j.solvePos p).1.seenFrom o, (j.solvePos p).2) := by
  have h1 : ∀ q : TwoP F, j.posLine (q.seenFrom o) = ((j.posLine q).1.seenFrom o, (j.posLine q).2) := fun q => by
    simp only [Wheel.posLine, seen_aa, seen_ba, seen_diff, seen_move]
  have h2 : j.posLimit (p.seenFrom o) = ((j.posLimit p).1.seenFrom o, (j.posLimit p).2) := by
    simp only [Wheel.posLimit, seen_aa, seen_ba, seen_diff, seen_move]
    split_ifs <;> rfl
  simp only [Wheel.solvePos, h1, h2]
theorem Pulley.solvePos_seen (j : Pulley F) (o : Vec2 F) (p : TwoP F) :
    (j.shiftOrigin o).solvePos (p.seenFrom o) = ((j.solvePos p).1.seenFrom o, (j.solvePos p).2) := by
  simp only [Pulley.solvePos, Pulley.shiftOrigin, seen_aa, seen_ba, seen_world_a, seen_world_b]
  refine Prod.ext ?_ rfl
  unfold TwoP.seenFrom Pos.seenFrom
  dsimp only
  congr 2 <;> ext <;> simp <;> ring
theorem gearCoordinate_seen (slide : Bool) (f g : JBody F) (x y z : Vec2 F) (r : F) (o : Vec2 F) (p q : Pos F) :
    gearCoordinate slide f g x y z r (p.seenFrom o) (q.seenFrom o) = gearCoordinate slide f g x y z r p q := by
  have e : (p.seenFrom o).c - (q.seenFrom o).c = p.c - q.c := by ext <;> simp [Pos.seenFrom]
  have e1 : (p.seenFrom o).a = p.a := rfl
  have e2 : (q.seenFrom o).a = q.a := rfl
  simp only [gearCoordinate, e, e1, e2]
theorem Gear.solvePos_seen (j : Gear F) (o : Vec2 F) (p : FourP F) : j.solvePos (p.seenFrom o) = ((j.solvePos p).1.seenFrom o, (j.solvePos p).2) := by
  unfold Gear.solvePos
  dsimp only
  have e1 : gearCoordinate j.slideA j.fA j.fC j.localAnchorA j.localAnchorC j.localAxisC j.referenceAngleA (p.seenFrom o).a (p.seenFrom o).c = _ :=
    gearCoordinate_seen _ _ _ _ _ _ _ o p.a p.c
  have e2 : gearCoordinate j.slideB j.fB j.fD j.localAnchorB j.localAnchorD j.localAxisD j.referenceAngleB (p.seenFrom o).b (p.seenFrom o).d = _ :=
    gearCoordinate_seen _ _ _ _ _ _ _ o p.b p.d
  rw [e1, e2]
  refine Prod.ext ?_ rfl
  unfold FourP.seenFrom Pos.seenFrom
  dsimp only
  congr 2 <;> ext <;> simp <;> ring

/-! ## On the arrays -/

theorem seenFrom_get (o : Vec2 F) (pos : Arr (Pos F)) (i : Nat) : (seenFrom o pos).get i = (pos.get i).map (Pos.seenFrom o) := by
  unfold Arr.get seenFrom
  dsimp only
  split <;> rfl
theorem seenFrom_set (o : Vec2 F) (pos : Arr (Pos F)) (i : Nat) (x : Pos F) : (seenFrom o pos).set i (x.seenFrom o) = (pos.set i x).map (seenFrom o) := by
  unfold Arr.set seenFrom
  dsimp only
  split
  · simp only [Option.map_some, Option.some.injEq, Arr.mk.injEq, true_and]
    funext k
    unfold upd
    split <;> rfl
  · rfl
theorem loadTwoP_seen (o : Vec2 F) (pos : Arr (Pos F)) (a b : Nat) : loadTwoP (seenFrom o pos) a b = (loadTwoP pos a b).map (TwoP.seenFrom o) := by
  unfold loadTwoP
  rw [seenFrom_get, seenFrom_get]
  cases pos.get a <;> cases pos.get b <;> rfl
theorem storeTwoP_seen (o : Vec2 F) (pos : Arr (Pos F)) (a b : Nat) (s : TwoP F) :
    storeTwoP (seenFrom o pos) a b (s.seenFrom o) = (storeTwoP pos a b s).map (seenFrom o) := by
  unfold storeTwoP
  have e : (seenFrom o pos).set a (s.seenFrom o).a = (pos.set a s.a).map (seenFrom o) := seenFrom_set o pos a s.a
  rw [e]
  cases pos.set a s.a with
  | none => rfl
  | some q => exact seenFrom_set o q b s.b
theorem onTwoP_seen (o : Vec2 F) (pos : Arr (Pos F)) (a b : Nat) {f g : TwoP F → TwoP F × Bool} (h : ∀ p, f (p.seenFrom o) = ((g p).1.seenFrom o, (g p).2)) :
    onTwoP (seenFrom o pos) a b f = (onTwoP pos a b g).map fun r => (seenFrom o r.1, r.2) := by
  unfold onTwoP
  rw [loadTwoP_seen]
  cases loadTwoP pos a b with
  | none => rfl
  | some p =>
    simp only [Option.map_some, Option.bind_eq_bind, Option.bind_some, h, storeTwoP_seen]
    cases storeTwoP pos a b (g p).1 <;> rfl
theorem loadFourP_seen (o : Vec2 F) (pos : Arr (Pos F)) (a b c d : Nat) : loadFourP (seenFrom o pos) a b c d = (loadFourP pos a b c d).map (FourP.seenFrom o) := by
  unfold loadFourP
  rw [seenFrom_get, seenFrom_get, seenFrom_get, seenFrom_get]
  cases pos.get a <;> cases pos.get b <;> cases pos.get c <;> cases pos.get d <;> rfl
theorem storeFourP_seen (o : Vec2 F) (pos : Arr (Pos F)) (a b c d : Nat) (s : FourP F) :
    storeFourP (seenFrom o pos) a b c d (s.seenFrom o) = (storeFourP pos a b c d s).map (seenFrom o) := by
  unfold storeFourP
  have e : (seenFrom o pos).set a (s.seenFrom o).a = (pos.set a s.a).map (seenFrom o) := seenFrom_set o pos a s.a
  rw [e]
  cases pos.set a s.a with
  | none => rfl
  | some q =>
    have e : (seenFrom o q).set b (s.seenFrom o).b = (q.set b s.b).map (seenFrom o) := seenFrom_set o q b s.b
    simp only [Option.map_some, Option.bind_eq_bind, Option.bind_some, e]
    cases q.set b s.b with
    | none => rfl
    | some q =>
      have e : (seenFrom o q).set c (s.seenFrom o).c = (q.set c s.c).map (seenFrom o) := seenFrom_set o q c s.c
      simp only [Option.map_some, Option.bind_some, e]
      cases q.set c s.c with
      | none => rfl
      | some q => exact seenFrom_set o q d s.d

theorem Joint.solvePos_seen (o : Vec2 F) (pos : Arr (Pos F)) (j : Joint F) :
    (j.shiftOrigin o).solvePos (seenFrom o pos) = (j.solvePos pos).map fun r => (seenFrom o r.1, r.2) := by
  cases j with
  | revolute j => exact onTwoP_seen o pos _ _ (j.solvePos_seen o)
  | prismatic j => exact onTwoP_seen o pos _ _ (j.solvePos_seen o)
  | distance j => exact onTwoP_seen o pos _ _ (j.solvePos_seen o)
  | weld j => exact onTwoP_seen o pos _ _ (j.solvePos_seen o)
  | wheel j => exact onTwoP_seen o pos _ _ (j.solvePos_seen o)
  | pulley j => exact onTwoP_seen o pos _ _ (j.solvePos_seen o)
  | friction j => rfl
  | motor j => rfl
  | mouse j => rfl
  | gear j =>
    unfold Joint.shiftOrigin Joint.solvePos
    dsimp only
    rw [loadFourP_seen]
    cases loadFourP pos j.fA.index j.fB.index j.fC.index j.fD.index with
    | none => rfl
    | some p =>
      simp only [Option.map_some, Option.bind_eq_bind, Option.bind_some, j.solvePos_seen o, storeFourP_seen]
      cases storeFourP pos j.fA.index j.fB.index j.fC.index j.fD.index (j.solvePos p).1 <;> rfl

theorem onTwo_seen {α : Type} (o : Vec2 F) {mk : α → Joint F} {vel : Arr (Vel F)} {a b : Nat} {f g : Two F → α × Two F}
    (h1 : ∀ s, (f s).2 = (g s).2) (h2 : ∀ s, mk (f s).1 = (mk (g s).1).shiftOrigin o) :
    onTwo mk vel a b f = (onTwo mk vel a b g).map fun r => (r.1.shiftOrigin o, r.2) := by
  unfold onTwo
  cases loadTwo vel a b with
  | none => rfl
  | some s =>
    simp only [Option.bind_eq_bind, Option.bind_some, h1, h2]
    cases storeTwo vel a b (g s).2 <;> rfl

theorem initTwo_seen {α : Type} (o : Vec2 F) {mk : α → Joint F} {pos : Arr (Pos F)} {vel : Arr (Vel F)} {a b : Nat} {f g : TwoP F → Two F → α × Two F}
    (h1 : ∀ p s, (f (p.seenFrom o) s).2 = (g p s).2) (h2 : ∀ p s, mk (f (p.seenFrom o) s).1 = (mk (g p s).1).shiftOrigin o) :
    (loadTwoP (seenFrom o pos) a b >>= fun p => onTwo mk vel a b (f p)) = (loadTwoP pos a b >>= fun p => onTwo mk vel a b (g p)).map fun r => (r.1.shiftOrigin o, r.2) := by
  rw [loadTwoP_seen]
  cases loadTwoP pos a b with
  | none => rfl
  | some p => exact onTwo_seen o (h1 p) (h2 p)

theorem Joint.initVel_seen (o : Vec2 F) (st : JStep F) (bodies : Nat → JBody F) (pos : Arr (Pos F)) (vel : Arr (Vel F)) (j : Joint F) :
    (j.shiftOrigin o).initVel st bodies (seenFrom o pos) vel = (j.initVel st bodies pos vel).map fun r => (r.1.shiftOrigin o, r.2) := by
  cases j with
  | revolute j => exact initTwo_seen (g := j.initVel st bodies) o (fun p s => by unfold Revolute.initVel; rw [Revolute.prepare_seen]) (fun p s => by unfold Revolute.initVel; rw [Revolute.prepare_seen]; rfl)
  | prismatic j => exact initTwo_seen (g := j.initVel st bodies) o (fun p s => by unfold Prismatic.initVel; rw [Prismatic.prepare_seen]) (fun p s => by unfold Prismatic.initVel; rw [Prismatic.prepare_seen]; rfl)
  | distance j => exact initTwo_seen (g := j.initVel st bodies) o (fun p s => by unfold DistanceJ.initVel; rw [DistanceJ.prepare_seen]) (fun p s => by unfold DistanceJ.initVel; rw [DistanceJ.prepare_seen]; rfl)
  | weld j => exact initTwo_seen (g := j.initVel st bodies) o (fun p s => by unfold Weld.initVel; rw [Weld.prepare_seen]) (fun p s => by unfold Weld.initVel; rw [Weld.prepare_seen]; rfl)
  | wheel j => exact initTwo_seen (g := j.initVel st bodies) o (fun p s => by unfold Wheel.initVel; rw [Wheel.prepare_seen]) (fun p s => by unfold Wheel.initVel; rw [Wheel.prepare_seen]; rfl)
  | friction j => exact initTwo_seen (g := j.initVel st bodies) o (fun p s => by unfold FrictionJ.initVel; rw [FrictionJ.prepare_seen]) (fun p s => by unfold FrictionJ.initVel; rw [FrictionJ.prepare_seen]; rfl)
  | motor j => exact initTwo_seen (g := j.initVel st bodies) o (fun p s => by unfold MotorJ.initVel; rw [MotorJ.prepare_seen]) (fun p s => by unfold MotorJ.initVel; rw [MotorJ.prepare_seen]; rfl)
  | pulley j => exact initTwo_seen (f := (j.shiftOrigin o).initVel st bodies) (g := j.initVel st bodies) o (fun p s => by rw [Pulley.initVel_seen]) (fun p s => by rw [Pulley.initVel_seen]; rfl)
  | mouse j =>
    unfold Joint.initVel Joint.shiftOrigin
    dsimp only
    have e : (seenFrom o pos).get (bodies (j.shiftOrigin o).bodyB).index = (pos.get (bodies j.bodyB).index).map (Pos.seenFrom o) := seenFrom_get _ _ _
    have e' : (j.shiftOrigin o).bodyB = j.bodyB := rfl
    rw [e]
    cases pos.get (bodies j.bodyB).index with
    | none => rfl
    | some p =>
      simp only [Option.map_some, Option.bind_eq_bind, Option.bind_some, Mouse.initVel_seen, e']
      cases vel.get (bodies j.bodyB).index with
      | none => rfl
      | some s =>
        simp only [Option.bind_some]
        cases vel.set (bodies j.bodyB).index (j.initVel st bodies p s).2 <;> rfl
  | gear j =>
    unfold Joint.initVel Joint.shiftOrigin
    dsimp only
    rw [loadFourP_seen]
    cases loadFourP pos (bodies j.bodyA).index (bodies j.bodyB).index (bodies j.bodyC).index (bodies j.bodyD).index with
    | none => rfl
    | some p =>
      have e : ∀ s, j.initVel st bodies (p.seenFrom o) s = j.initVel st bodies p s := fun s => by unfold Gear.initVel; rw [Gear.prepare_seen]
      simp only [Option.map_some, Option.bind_eq_bind, Option.bind_some, e]
      cases loadFour vel (bodies j.bodyA).index (bodies j.bodyB).index (bodies j.bodyC).index (bodies j.bodyD).index with
      | none => rfl
      | some s =>
        simp only [Option.bind_some]
        cases storeFour vel (bodies j.bodyA).index (bodies j.bodyB).index (bodies j.bodyC).index (bodies j.bodyD).index (j.initVel st bodies p s).2 <;> rfl

theorem Joint.solveVel_seen (o : Vec2 F) (st : JStep F) (vel : Arr (Vel F)) (j : Joint F) :
    (j.shiftOrigin o).solveVel st vel = (j.solveVel st vel).map fun r => (r.1.shiftOrigin o, r.2) := by
  cases j with
  | pulley j => exact onTwo_seen (f := (j.shiftOrigin o).solveVel) (g := j.solveVel) o (fun s => rfl) (fun s => rfl)
  | mouse j =>
    unfold Joint.solveVel Joint.shiftOrigin
    dsimp only
    have e : (j.shiftOrigin o).frame = j.frame := rfl
    rw [e]
    have e' : ∀ s, (j.shiftOrigin o).solveVel st s = ((j.solveVel st s).1.shiftOrigin o, (j.solveVel st s).2) := fun s => rfl
    cases vel.get j.frame.index with
    | none => rfl
    | some s =>
      simp only [Option.bind_eq_bind, Option.bind_some, e']
      cases vel.set j.frame.index (j.solveVel st s).2 <;> rfl
  | gear j =>
    unfold Joint.solveVel Joint.shiftOrigin
    dsimp only
    cases loadFour vel j.fA.index j.fB.index j.fC.index j.fD.index with
    | none => rfl
    | some s =>
      simp only [Option.bind_eq_bind, Option.bind_some]
      cases storeFour vel j.fA.index j.fB.index j.fC.index j.fD.index (j.solveVel s).2 <;> rfl
  | _ => exact onTwo_seen o (fun s => rfl) (fun s => rfl)

theorem Joint.calls_seen (o : Vec2 F) (st : JStep F) (bodies : Nat → JBody F) (pos : Arr (Pos F)) (v : Arr (Vel F)) (vs : List (Arr (Vel F))) (j : Joint F) :
    (j.shiftOrigin o).calls st bodies (seenFrom o pos) v vs = (j.calls st bodies pos v vs).map fun r => (r.1.shiftOrigin o, r.2) := by
  have hs : ∀ (vs : List (Arr (Vel F))) (j : Joint F), (j.shiftOrigin o).solves st vs = (j.solves st vs).map fun r => (r.1.shiftOrigin o, r.2) := by
    intro vs
    induction vs with
    | nil => intro j; rfl
    | cons v vs ih =>
      intro j
      unfold Joint.solves
      rw [Joint.solveVel_seen]
      cases j.solveVel st v with
      | none => rfl
      | some r =>
        simp only [Option.map_some, Option.bind_eq_bind, Option.bind_some, ih]
        cases r.1.solves st vs <;> rfl
  unfold Joint.calls
  rw [Joint.initVel_seen]
  cases j.initVel st bodies pos v with
  | none => rfl
  | some r =>
    simp only [Option.map_some, Option.bind_eq_bind, Option.bind_some, hs]
    cases r.1.solves st vs <;> rfl

end
end B2
