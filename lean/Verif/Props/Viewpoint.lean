import Verif.Proofs.ViewpointGjk

/-! Collision does not depend on the point of view (C140). -/
namespace B2.Props
set_option linter.unusedSectionVars false
open Spec

section
variable {F : Type} [Field F] [LinearOrder F] [IsStrictOrderedRing F] [Elem F] {T : Xf F}

/-- C140, contacts: what `evaluate` writes into the manifold of two shapes — whether they touch, the type, the local normal and
points and their features — does not change when both bodies are turned and shifted as one. This holds for all kinds of shapes
and includes the panics. -/
theorem c140_manifold (hT : Rigid T) (a : Shape F) (i : Nat) (xfA : Xf F) (b : Shape F) (xfB : Xf F) :
    evaluateShapes a i (viewed T xfA) b (viewed T xfB) = evaluateShapes a i xfA b xfB :=
  evaluateShapes_viewed hT a i xfA b xfB

/-- C140, contacts: what `evaluate` finds depends on where B is in the coordinates of A only. -/
theorem c140_relative (a : Shape F) (i : Nat) (xfA : Xf F) (b : Shape F) (xfB : Xf F) (hA : Rigid xfA) :
    evaluateShapes a i xfA b xfB = evaluateShapes a i ⟨⟨0, 0⟩, ⟨0, 1⟩⟩ b (xfA.mulT xfB) := by
  let T : Xf F := ⟨-xfA.q.mulTV xfA.p, ⟨-xfA.q.s, xfA.q.c⟩⟩
  have hT : Rigid T := by
    simp only [Rigid, T] at hA ⊢
    linear_combination hA
  have h := evaluateShapes_viewed hT a i xfA b xfB
  have e1 : viewed T xfA = ⟨⟨0, 0⟩, ⟨0, 1⟩⟩ := by
    simp only [Rigid] at hA
    ext <;> simp only [viewed, carry, turnBy, T, Rot.mulTV, Vec2.neg_x, Vec2.neg_y]
    · ring
    · ring
    · ring
    · linear_combination hA
  have e2 : viewed T xfB = xfA.mulT xfB := by
    ext <;> simp only [viewed, carry, turnBy, T, Rot.mulTV, Rot.mulT, Xf.mulT, Vec2.neg_x, Vec2.neg_y, Vec2.sub_x, Vec2.sub_y] <;>
      ring
  rw [e1, e2] at h
  exact h.symm

/-- C140, contacts: what a user sees of a contact — the world manifold — turns and shifts with the bodies, unless it is one
of two circles (or of a circle and the end of an edge) whose centres coincide up to `epsilon`. -/
theorem c140_contact (hT : Rigid T) {a : Shape F} {i : Nat} {xfA : Xf F} {b : Shape F} {xfB : Xf F} {m : Manifold F} {rA rB : F}
    {wm : WorldManifold F} (hm : evaluateShapes a i xfA b xfB = some m) (ha : CentresApart m xfA xfB)
    (hw : worldManifold m xfA rA xfB rB = some wm) :
    ∃ wm', worldManifold m (viewed T xfA) rA (viewed T xfB) rB = some wm' ∧ SameContact T m.points.length wm wm' :=
  worldManifold_viewed hT m xfA xfB rA rB ha (evaluate_one a i xfA b xfB m hm) wm hw

/-- C140, the exception: the normal of two circles with the same centre is `(1, 0)` from every point of view, so it does not turn
with the bodies. -/
theorem c140_concentric {m : Manifold F} {q : ManifoldPoint F} {xfA xfB : Xf F} {rA rB : F} (ht : m.type = .circles)
    (hp : m.points = [q]) (hc : xfA.mulV m.localPoint = xfB.mulV q.localPoint) (T : Xf F) :
    ∃ wm, worldManifold m (viewed T xfA) rA (viewed T xfB) rB = some wm ∧ wm.normal = ⟨1, 0⟩ := by
  have h0 : ¬ distanceV2 (xfB.mulV q.localPoint |> carry T) (xfB.mulV q.localPoint |> carry T) > epsilon * epsilon := by
    have : (0 : F) < epsilon * epsilon := mul_pos (by simp [epsilon]) (by simp [epsilon])
    simp [distanceV2, dot, this.le]
  simp only [worldManifold, hp, ht, viewed_mulV, hc, if_neg h0]
  exact ⟨_, rfl, rfl⟩

/-- C140, point tests: a point is in a shape from every point of view or from none. -/
theorem c140_point (hT : Rigid T) (s : Shape F) (xf : Xf F) (p : Vec2 F) :
    s.testPoint (viewed T xf) (carry T p) = s.testPoint xf p :=
  testPoint_viewed hT s xf p

/-- C140, ray casts: the ray in the new coordinates hits where the old one did, at the same fraction and with the normal
turned; or neither hits. -/
theorem c140_ray (hT : Rigid T) (s : Shape F) (r : RayIn F) (xf : Xf F) (i : Nat) :
    s.rayCast (carryRay T r) (viewed T xf) i = (s.rayCast r xf i).map (Option.map (carryHit T)) :=
  rayCast_viewed hT s r xf i

/-- C140, distances: a computation that ends before the limit of 20 iterations gives the same distance, the witness points carried
along, the same number of iterations and the same cache from every point of view. -/
theorem c140_distance (hT : Rigid T) {c c' : Cache F} {i : DistanceInput F} {o : DistanceOutput F}
    (hA : i.proxyA.vertices ≠ []) (hB : i.proxyB.vertices ≠ [])
    (hc : CacheFits c i.proxyA.vertices.length i.proxyB.vertices.length)
    (h : distance c i = some (o, c')) (hi : o.iterations < 20) :
    distance c (carryQuery T i) = some (carryAnswer T o, c') :=
  distance_viewed hT hA hB hc h hi

/-- C140, shape casts: the same fraction, the point carried and the normal turned; or no hit from any point of view. -/
theorem c140_shapeCast (hT : Rigid T) (i : ShapeCastInput F) :
    shapeCast (carryCast T i) = (shapeCast i).map (Option.map (carryCastOut T)) :=
  shapeCast_viewed hT i

end

/-! ## Examples -/
section
/-- A turn by the angle of the triangle 3, 4, 5 and a shift. -/
private def tilt : Xf ℚ := ⟨⟨7, -2⟩, ⟨3 / 5, 4 / 5⟩⟩
private def here : Xf ℚ := ⟨⟨0, 0⟩, ⟨0, 1⟩⟩
private def right : Xf ℚ := ⟨⟨3 / 2, 0⟩, ⟨0, 1⟩⟩
private def ball : Shape ℚ := .circle ⟨1, ⟨0, 0⟩⟩

/-- Two overlapping circles with different centres meet the hypotheses of `c140_contact`: they touch at one point. -/
example : Rigid tilt ∧ letI : Elem ℚ := ⟨fun x => x, fun _ => 0, fun _ => 1, fun x => x, 3⟩
    ∃ m wm, evaluateShapes ball 0 here ball right = some m ∧ m.points.length = 1 ∧ CentresApart m here right ∧
      worldManifold m here 1 right 1 = some wm := by
  letI : Elem ℚ := ⟨fun x => x, fun _ => 0, fun _ => 1, fun x => x, 3⟩
  have h : ¬ dot (right.mulV (⟨0, 0⟩ : Vec2 ℚ) - here.mulV ⟨0, 0⟩) (right.mulV ⟨0, 0⟩ - here.mulV ⟨0, 0⟩) > (1 + 1) * (1 + 1) := by
    decide +kernel
  have hm : evaluateShapes ball 0 here ball right
      = some ⟨[.at' ⟨0, 0⟩ .default], ⟨0, 0⟩, ⟨0, 0⟩, .circles⟩ := by
    simp only [evaluateShapes, ball, collideCircles, if_neg h]
  refine ⟨by norm_num [Rigid, tilt], _, _, hm, rfl, ?_, rfl⟩
  intro _ q hq
  simp only [List.mem_singleton] at hq
  subst hq
  show distanceV2 (here.mulV (⟨0, 0⟩ : Vec2 ℚ)) (right.mulV ⟨0, 0⟩) > epsilon * epsilon
  decide +kernel

/-- A point and a segment meet the hypotheses of `c140_distance`. -/
example : let i : DistanceInput ℚ := ⟨⟨[⟨0, 0⟩], 0⟩, ⟨[⟨3, -3⟩, ⟨3, 5⟩], 0⟩, here, here, false⟩
    Rigid tilt ∧ i.proxyA.vertices ≠ [] ∧ i.proxyB.vertices ≠ [] ∧
      CacheFits (⟨0, 0, (0, 0), (0, 0), (0, 0)⟩ : Cache ℚ) i.proxyA.vertices.length i.proxyB.vertices.length ∧
      letI : Elem ℚ := ⟨fun x => x, fun _ => 0, fun _ => 1, fun x => x, 3⟩
      ∃ o c', distance ⟨0, 0, (0, 0), (0, 0), (0, 0)⟩ i = some (o, c') ∧ o.iterations < 20 ∧ dist2 o.pointA o.pointB = 9 := by
  letI : Elem ℚ := ⟨fun x => x, fun _ => 0, fun _ => 1, fun x => x, 3⟩
  intro i
  refine ⟨by norm_num [Rigid, tilt], by simp [i], by simp [i], ⟨by decide, by decide, by decide, by decide⟩, ?_⟩
  have key : ((distance ⟨0, 0, (0, 0), (0, 0), (0, 0)⟩ i).map fun x => decide (x.1.iterations < 20 ∧ dist2 x.1.pointA x.1.pointB = 9))
      = some true := by decide +kernel
  obtain ⟨x, e, hx⟩ := Option.map_eq_some_iff.mp key
  exact ⟨x.1, x.2, e, of_decide_eq_true hx⟩

/-- The hypotheses of `c140_concentric` are met by two circles with the same centre. -/
example : let m : Manifold ℚ := ⟨[.at' ⟨0, 0⟩ .default], ⟨0, 0⟩, ⟨0, 0⟩, .circles⟩
    m.type = .circles ∧ m.points = [.at' ⟨0, 0⟩ .default] ∧ here.mulV m.localPoint = here.mulV (⟨0, 0⟩ : Vec2 ℚ) ∧ Rigid here := by
  refine ⟨rfl, rfl, rfl, by norm_num [Rigid, here]⟩

end
end B2.Props
