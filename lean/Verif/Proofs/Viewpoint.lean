import Verif.Spec.Viewpoint
import Mathlib.Tactic.Ring
import Mathlib.Tactic.LinearCombination

/-!
# Lemmas on rigid changes of coordinates
-/
set_option linter.unusedSectionVars false

namespace B2
open Spec

section
variable {F : Type} [Field F]

/-! ## Algebra -/

theorem turn_sub [LinearOrder F] (T : Xf F) (a b : Vec2 F) : turnBy T a - turnBy T b = turnBy T (a - b) := by
  ext <;> simp [turnBy] <;> ring

theorem turn_add [LinearOrder F] (T : Xf F) (a b : Vec2 F) : turnBy T a + turnBy T b = turnBy T (a + b) := by
  ext <;> simp [turnBy] <;> ring

theorem turn_neg [LinearOrder F] (T : Xf F) (a : Vec2 F) : -turnBy T a = turnBy T (-a) := by
  ext <;> simp [turnBy] <;> ring

theorem turn_smul [LinearOrder F] (T : Xf F) (k : F) (a : Vec2 F) : k * turnBy T a = turnBy T (k * a) := by
  ext <;> simp [turnBy] <;> ring

theorem turn_zero [LinearOrder F] (T : Xf F) : turnBy T (⟨0, 0⟩ : Vec2 F) = ⟨0, 0⟩ := by
  ext <;> simp [turnBy]

theorem turn_crossVS [LinearOrder F] (T : Xf F) (k : F) (a : Vec2 F) : crossVS (turnBy T a) k = turnBy T (crossVS a k) := by
  ext <;> simp [turnBy, crossVS] <;> ring

theorem turn_crossSV [LinearOrder F] (T : Xf F) (k : F) (a : Vec2 F) : crossSV k (turnBy T a) = turnBy T (crossSV k a) := by
  ext <;> simp [turnBy, crossSV] <;> ring

theorem carry_sub [LinearOrder F] (T : Xf F) (a b : Vec2 F) : carry T a - carry T b = turnBy T (a - b) := by
  ext <;> simp [carry, turnBy] <;> ring

theorem carry_add_turn [LinearOrder F] (T : Xf F) (a b : Vec2 F) : carry T a + turnBy T b = carry T (a + b) := by
  ext <;> simp [carry, turnBy] <;> ring

theorem carry_sub_turn [LinearOrder F] (T : Xf F) (a b : Vec2 F) : carry T a - turnBy T b = carry T (a - b) := by
  ext <;> simp [carry, turnBy] <;> ring

theorem viewed_mulV [LinearOrder F] (T xf : Xf F) (v : Vec2 F) : (viewed T xf).mulV v = carry T (xf.mulV v) := by
  ext <;> simp [viewed, carry, turnBy, Xf.mulV] <;> ring

theorem viewed_q_mulV [LinearOrder F] (T xf : Xf F) (v : Vec2 F) : (viewed T xf).q.mulV v = turnBy T (xf.q.mulV v) := by
  ext <;> simp [viewed, turnBy, Rot.mulV] <;> ring

theorem viewed_center [LinearOrder F] (T xf : Xf F) (v : Vec2 F) :
    (viewed T xf).p + (viewed T xf).q.mulV v = carry T (xf.p + xf.q.mulV v) := by
  ext <;> simp [viewed, carry, turnBy, Rot.mulV] <;> ring

variable {T : Xf F}

theorem dot_turn [LinearOrder F] (hT : Rigid T) (a b : Vec2 F) : dot (turnBy T a) (turnBy T b) = dot a b := by
  simp only [dot, turnBy]
  unfold Rigid at hT
  linear_combination (a.x * b.x + a.y * b.y) * hT

theorem cross_turn [LinearOrder F] (hT : Rigid T) (a b : Vec2 F) : cross (turnBy T a) (turnBy T b) = cross a b := by
  simp only [cross, turnBy]
  unfold Rigid at hT
  linear_combination (a.x * b.y - a.y * b.x) * hT

theorem lengthSquared_turn [LinearOrder F] (hT : Rigid T) (a : Vec2 F) : (turnBy T a).lengthSquared = a.lengthSquared :=
  dot_turn hT a a

theorem length_turn [LinearOrder F] [Elem F] (hT : Rigid T) (a : Vec2 F) : (turnBy T a).length = a.length := by
  have h := dot_turn hT a a
  simp only [dot] at h
  simp only [Vec2.length, h]

theorem normalize_turn [LinearOrder F] [Elem F] (hT : Rigid T) (a : Vec2 F) :
    (turnBy T a).normalize = (turnBy T a.normalize.1, a.normalize.2) := by
  simp only [Vec2.normalize, length_turn hT]
  split
  · rfl
  · simp only [turnBy, Prod.mk.injEq, Vec2.mk.injEq, and_true]
    constructor <;> ring

theorem viewed_mulTV [LinearOrder F] (hT : Rigid T) (xf : Xf F) (v : Vec2 F) : (viewed T xf).mulTV (carry T v) = xf.mulTV v := by
  unfold Rigid at hT
  ext <;> simp only [viewed, carry, turnBy, Xf.mulTV]
  · linear_combination (xf.q.c * (v.x - xf.p.x) + xf.q.s * (v.y - xf.p.y)) * hT
  · linear_combination (-xf.q.s * (v.x - xf.p.x) + xf.q.c * (v.y - xf.p.y)) * hT

theorem viewed_q_mulTV [LinearOrder F] (hT : Rigid T) (xf : Xf F) (v : Vec2 F) :
    (viewed T xf).q.mulTV (turnBy T v) = xf.q.mulTV v := by
  unfold Rigid at hT
  ext <;> simp only [viewed, turnBy, Rot.mulTV]
  · linear_combination (xf.q.c * v.x + xf.q.s * v.y) * hT
  · linear_combination (-xf.q.s * v.x + xf.q.c * v.y) * hT

theorem viewed_p [LinearOrder F] (T xf : Xf F) : (viewed T xf).p = carry T xf.p := rfl

theorem viewed_mulT [LinearOrder F] (hT : Rigid T) (a b : Xf F) : (viewed T a).mulT (viewed T b) = a.mulT b := by
  have hq : (viewed T a).q.mulT (viewed T b).q = a.q.mulT b.q := by
    unfold Rigid at hT
    ext <;> simp only [viewed, Rot.mulT]
    · linear_combination (a.q.c * b.q.s - a.q.s * b.q.c) * hT
    · linear_combination (a.q.c * b.q.c + a.q.s * b.q.s) * hT
  simp only [Xf.mulT, hq, viewed_p, carry_sub, viewed_q_mulTV hT]

theorem dot_carry [LinearOrder F] (hT : Rigid T) (n v : Vec2 F) :
    dot (turnBy T n) (carry T v) = dot n v + dot (turnBy T n) T.p := by
  have h := dot_turn hT n v
  simp only [dot, carry] at h ⊢
  linear_combination h

theorem distanceV2_carry [LinearOrder F] (hT : Rigid T) (a b : Vec2 F) :
    distanceV2 (carry T a) (carry T b) = distanceV2 a b := by
  simp only [distanceV2, carry_sub, dot_turn hT]

theorem distanceV_carry [LinearOrder F] [Elem F] (hT : Rigid T) (a b : Vec2 F) :
    distanceV (carry T a) (carry T b) = distanceV a b := by
  simp only [distanceV, carry_sub, length_turn hT]

end

section
variable {F : Type} [Field F] [LinearOrder F] [Elem F] {T : Xf F}

/-! ## Manifolds -/

theorem collideCircles_viewed (hT : Rigid T) (a : Circle F) (xfA : Xf F) (b : Circle F) (xfB : Xf F) :
    collideCircles a (viewed T xfA) b (viewed T xfB) = collideCircles a xfA b xfB := by
  simp only [collideCircles, viewed_mulV, carry_sub, dot_turn hT]

theorem collidePolygonCircle_viewed (hT : Rigid T) (a : Polygon F) (xfA : Xf F) (b : Circle F) (xfB : Xf F) :
    collidePolygonCircle a (viewed T xfA) b (viewed T xfB) = collidePolygonCircle a xfA b xfB := by
  simp only [collidePolygonCircle, viewed_mulV, viewed_mulTV hT]

theorem collideEdgeCircle_viewed (hT : Rigid T) (a : Edge F) (xfA : Xf F) (b : Circle F) (xfB : Xf F) :
    collideEdgeCircle a (viewed T xfA) b (viewed T xfB) = collideEdgeCircle a xfA b xfB := by
  simp only [collideEdgeCircle, viewed_mulV, viewed_mulTV hT]

theorem collideEdgePolygon_viewed (hT : Rigid T) (a : Edge F) (xfA : Xf F) (b : Polygon F) (xfB : Xf F) :
    collideEdgePolygon a (viewed T xfA) b (viewed T xfB) = collideEdgePolygon a xfA b xfB := by
  simp only [collideEdgePolygon, viewed_mulT hT]

theorem findMaxSeparation_viewed (hT : Rigid T) (a : Polygon F) (xfA : Xf F) (b : Polygon F) (xfB : Xf F) :
    findMaxSeparation a (viewed T xfA) b (viewed T xfB) = findMaxSeparation a xfA b xfB := by
  simp only [findMaxSeparation, viewed_mulT hT]

/-- A clip vertex in the new coordinates. -/
def carryClip (T : Xf F) (c : ClipVertex F) : ClipVertex F := { c with v := carry T c.v }

theorem clipPush_carry (T : Xf F) (out : List (ClipVertex F)) (v : ClipVertex F) :
    clipPush (out.map (carryClip T)) (carryClip T v) = (clipPush out v).map (List.map (carryClip T)) := by
  simp only [clipPush, List.length_map]
  split <;> simp

theorem clip_carry (hT : Rigid T) (c0 c1 : ClipVertex F) (n : Vec2 F) (o o' : F) (ho : o' = o + dot (turnBy T n) T.p) (i : Nat) :
    clipSegmentToLine (carryClip T c0) (carryClip T c1) (turnBy T n) o' i
      = (clipSegmentToLine c0 c1 n o i).map (List.map (carryClip T)) := by
  have e0 : ∀ v : Vec2 F, dot (turnBy T n) (carry T v) - o' = dot n v - o := fun v => by
    rw [dot_carry hT, ho]; ring
  have hp := clipPush_carry T
  have h0 : (if dot n c0.v - o ≤ 0 then clipPush [] (carryClip T c0) else some [])
      = (if dot n c0.v - o ≤ 0 then clipPush [] c0 else some []).map (List.map (carryClip T)) := by
    split
    · exact hp [] c0
    · rfl
  simp only [clipSegmentToLine]
  have ev : ∀ c : ClipVertex F, (carryClip T c).v = carry T c.v := fun _ => rfl
  have ei : ∀ c : ClipVertex F, (carryClip T c).id = c.id := fun _ => rfl
  simp only [ev, ei, e0]
  rw [h0]
  cases (if dot n c0.v - o ≤ 0 then clipPush [] c0 else some []) with
  | none => rfl
  | some out =>
    simp only [Option.map_some, Option.bind_eq_bind, Option.bind_some]
    have h1 : (if dot n c1.v - o ≤ 0 then clipPush (out.map (carryClip T)) (carryClip T c1) else some (out.map (carryClip T)))
        = (if dot n c1.v - o ≤ 0 then clipPush out c1 else some out).map (List.map (carryClip T)) := by
      split
      · exact hp out c1
      · rfl
    rw [h1]
    cases (if dot n c1.v - o ≤ 0 then clipPush out c1 else some out) with
    | none => rfl
    | some out =>
      simp only [Option.map_some, Option.bind_some]
      split
      · rw [carry_sub, turn_smul, carry_add_turn]
        refine (congrArg (fun r => Option.bind r _) (hp out ⟨_, _⟩)).trans ?_
        cases clipPush out _ with
        | none => rfl
        | some out =>
          simp only [Option.map_some, Option.bind_some, List.length_map]
          split <;> rfl
      · rfl

theorem clipTwice_carry (hT : Rigid T) (c0 c1 : ClipVertex F) (n1 : Vec2 F) (o1 o1' : F) (i1 : Nat) (n2 : Vec2 F) (o2 o2' : F)
    (i2 : Nat) (h1 : o1' = o1 + dot (turnBy T n1) T.p) (h2 : o2' = o2 + dot (turnBy T n2) T.p) :
    clipTwice (carryClip T c0) (carryClip T c1) (turnBy T n1) o1' i1 (turnBy T n2) o2' i2
      = (clipTwice c0 c1 n1 o1 i1 n2 o2 i2).map (Option.map fun r => (carryClip T r.1, carryClip T r.2)) := by
  simp only [clipTwice]
  rw [clip_carry hT c0 c1 n1 o1 o1' h1]
  cases clipSegmentToLine c0 c1 n1 o1 i1 with
  | none => rfl
  | some l =>
    simp only [Option.map_some, Option.bind_some]
    match l with
    | [] => rfl
    | [_] => rfl
    | _ :: _ :: _ :: _ => rfl
    | [a, b] =>
      simp only [List.map_cons, List.map_nil]
      rw [clip_carry hT a b n2 o2 o2' h2]
      cases clipSegmentToLine a b n2 o2 i2 with
      | none => rfl
      | some l =>
        match l with
        | [] => rfl
        | [_] => rfl
        | _ :: _ :: _ :: _ => rfl
        | [c, d] => rfl

theorem findIncidentEdge_viewed (hT : Rigid T) (p1 : Polygon F) (xf1 : Xf F) (e : Nat) (p2 : Polygon F) (xf2 : Xf F) :
    findIncidentEdge p1 (viewed T xf1) e p2 (viewed T xf2)
      = (findIncidentEdge p1 xf1 e p2 xf2).map fun r => (carryClip T r.1, carryClip T r.2) := by
  simp only [findIncidentEdge, viewed_mulV, viewed_q_mulV, viewed_q_mulTV hT]
  split <;> rfl

theorem clipPolygons_viewed (hT : Rigid T) (r : F) (p1 : Polygon F) (xf1 : Xf F) (e : Nat) (p2 : Polygon F) (xf2 : Xf F)
    (flip : Bool) :
    clipPolygons r p1 (viewed T xf1) e p2 (viewed T xf2) flip = clipPolygons r p1 xf1 e p2 xf2 flip := by
  simp only [clipPolygons]
  rw [findIncidentEdge_viewed hT]
  cases findIncidentEdge p1 xf1 e p2 xf2 with
  | none => rfl
  | some inc =>
    simp only [Option.map_some, Option.bind_some, viewed_q_mulV, viewed_mulV, turn_neg, turn_crossVS]
    generalize hv1 : psGet p1.verts e = v1
    generalize hv2 : psGet p1.verts (nextIndex e p1.verts.length) = v2
    generalize ht : xf1.q.mulV (v2 - v1).normalize.1 = t
    rw [clipTwice_carry hT inc.1 inc.2 (-t) (-dot t (xf1.mulV v1) + r) _ e t (dot t (xf1.mulV v2) + r) _
      (nextIndex e p1.verts.length)
      (by rw [dot_carry hT]; simp only [dot, turnBy, Vec2.neg_x, Vec2.neg_y]; ring) (by rw [dot_carry hT]; ring)]
    cases clipTwice inc.1 inc.2 (-t) (-dot t (xf1.mulV v1) + r) e t (dot t (xf1.mulV v2) + r) (nextIndex e p1.verts.length) with
    | none => rfl
    | some c =>
      cases c with
      | none => rfl
      | some c =>
        simp only [Option.map_some, Option.bind_some, carryClip, List.filter_cons, List.filter_nil, dot_carry hT,
          add_sub_add_right_eq_sub]
        split_ifs <;> simp only [List.map_cons, List.map_nil, viewed_mulTV hT]

theorem collidePolygons_viewed (hT : Rigid T) (a : Polygon F) (xfA : Xf F) (b : Polygon F) (xfB : Xf F) :
    collidePolygons a (viewed T xfA) b (viewed T xfB) = collidePolygons a xfA b xfB := by
  simp only [collidePolygons, findMaxSeparation_viewed hT, clipPolygons_viewed hT]

theorem evaluateShapes_viewed (hT : Rigid T) (a : Shape F) (i : Nat) (xfA : Xf F) (b : Shape F) (xfB : Xf F) :
    evaluateShapes a i (viewed T xfA) b (viewed T xfB) = evaluateShapes a i xfA b xfB := by
  cases a <;> cases b <;>
    simp only [evaluateShapes, collideCircles_viewed hT, collidePolygonCircle_viewed hT, collideEdgeCircle_viewed hT,
      collideEdgePolygon_viewed hT, collidePolygons_viewed hT]

/-- A manifold between circles has at most one point. -/
theorem evaluate_one (a : Shape F) (i : Nat) (xfA : Xf F) (b : Shape F) (xfB : Xf F) (m : Manifold F)
    (h : evaluateShapes a i xfA b xfB = some m) (ht : m.type = .circles) : m.points.length ≤ 1 := by
  have hclip : ∀ (r : F) (p1 : Polygon F) (xf1 : Xf F) (e : Nat) (p2 : Polygon F) (xf2 : Xf F) (flip : Bool),
      clipPolygons r p1 xf1 e p2 xf2 flip = some m → False := by
    intro r p1 xf1 e p2 xf2 flip h
    simp only [clipPolygons, Option.bind_eq_some_iff] at h
    obtain ⟨_, _, c, _, h⟩ := h
    cases c <;> cases flip <;> simp only [Option.some.injEq] at h <;> subst h <;> simp at ht
  have hec : ∀ (e : Edge F) (c : Circle F), collideEdgeCircle e xfA c xfB = some m → m.points.length ≤ 1 := by
    intro e c h
    simp only [collideEdgeCircle] at h
    split_ifs at h <;> simp only [Option.some.injEq, reduceCtorEq] at h <;> subst h <;> simp [Manifold.default]
  have hep : ∀ (e : Edge F) (p : Polygon F), collideEdgePolygon e xfA p xfB = some m → m.points.length ≤ 1 := by
    intro e p h
    simp only [collideEdgePolygon] at h
    split_ifs at h
    · simp only [Option.some.injEq] at h; subst h; simp [Manifold.default]
    · simp only [Option.some.injEq] at h; subst h; simp [Manifold.default]
    · simp only [Option.some.injEq] at h; subst h; simp [Manifold.default]
    · split at h
      · simp only [Option.some.injEq] at h; subst h; simp [Manifold.default]
      · exfalso
        split_ifs at h
        · simp only [clipToEdge, Option.bind_eq_some_iff] at h
          obtain ⟨c, _, h⟩ := h
          cases c <;> simp only [Option.some.injEq] at h <;> subst h <;> simp at ht
        · simp only [clipToFace, Option.bind_eq_some_iff] at h
          obtain ⟨_, _, c, _, h⟩ := h
          cases c <;> simp only [Option.some.injEq] at h <;> subst h <;> simp at ht
  cases a <;> cases b <;> simp only [evaluateShapes, reduceCtorEq] at h
  · simp only [Option.some.injEq, collideCircles] at h
    split_ifs at h <;> subst h <;> simp [Manifold.default]
  · exact hec _ _ h
  · exact hep _ _ h
  · simp only [Option.some.injEq, collidePolygonCircle] at h
    split at h
    · subst h; simp [Manifold.default]
    · split_ifs at h <;> subst h <;> simp [Manifold.default, faceCircle]
  · simp only [collidePolygons] at h
    split_ifs at h
    · simp only [Option.some.injEq] at h; subst h; simp [Manifold.default]
    · simp only [Option.some.injEq] at h; subst h; simp [Manifold.default]
    · exact (hclip _ _ _ _ _ _ _ h).elim
    · exact (hclip _ _ _ _ _ _ _ h).elim
  · obtain ⟨e, _, h⟩ := Option.bind_eq_some_iff.1 h
    exact hec _ _ h
  · obtain ⟨e, _, h⟩ := Option.bind_eq_some_iff.1 h
    exact hep _ _ h

/-! ## World manifolds -/

theorem carry_half [CharZero F] (T : Xf F) (a b : Vec2 F) :
    (1 / 2 : F) * (carry T a + carry T b) = carry T ((1 / 2 : F) * (a + b)) := by
  ext <;> simp [carry, turnBy] <;> ring

theorem worldPoint_carry [CharZero F] (hT : Rigid T) (clip p n : Vec2 F) (r r' : F) :
    worldPoint (carry T clip) (carry T p) (turnBy T n) r r'
      = (carry T (worldPoint clip p n r r').1, carry T (worldPoint clip p n r r').2.1, carry T (worldPoint clip p n r r').2.2) := by
  simp only [worldPoint, carry_sub, dot_turn hT, turn_smul, carry_add_turn, carry_sub_turn, carry_half]

theorem worldManifold_viewed [CharZero F] (hT : Rigid T) (m : Manifold F) (xfA xfB : Xf F) (rA rB : F)
    (ha : CentresApart m xfA xfB) (h1 : m.type = .circles → m.points.length ≤ 1) (wm : WorldManifold F)
    (h : worldManifold m xfA rA xfB rB = some wm) :
    ∃ wm', worldManifold m (viewed T xfA) rA (viewed T xfB) rB = some wm' ∧ SameContact T m.points.length wm wm' := by
  unfold worldManifold at h ⊢
  have hd : ∀ n, SameContact T 0 (WorldManifold.default : WorldManifold F) n ↔ n = ⟨⟨0, 0⟩, n.p1, n.p2, 0, 0⟩ := by
    intro n
    constructor
    · intro h
      rcases n with ⟨n, p1, p2, s1, s2⟩
      have h1 := h.normal
      have h2 := h.s1
      have h3 := h.s2
      simp only [WorldManifold.default, turn_zero] at h1 h2 h3
      simp [h1, h2, h3]
    · intro h
      rw [h]
      exact ⟨(turn_zero T).symm, by simp, by simp, rfl, rfl⟩
  split at h
  case h_1 hp =>
    cases h
    exact ⟨_, rfl, by rw [hp]; exact (hd _).2 rfl⟩
  case h_2 q rest hp =>
    simp only [viewed_mulV, viewed_q_mulV]
    split at h
    case h_1 ht =>
      have hapart := ha ht q (by rw [hp]; exact List.mem_cons_self ..)
      simp only [if_pos hapart, Option.some.injEq] at h
      simp only [distanceV2_carry hT, if_pos hapart, carry_sub, normalize_turn hT, turn_smul, carry_add_turn, carry_sub_turn,
        carry_half, dot_turn hT]
      subst h
      exact ⟨_, rfl, rfl, fun _ => rfl, fun hn => absurd (h1 ht) (by omega), rfl, rfl⟩
    case h_2 ht =>
      simp only [worldPoint_carry hT, carry_sub, dot_turn hT]
      match rest, hp with
      | [], hp =>
        simp only [Option.some.injEq] at h
        subst h
        exact ⟨_, rfl, rfl, fun _ => rfl, fun hn => by rw [hp] at hn; simp at hn, rfl, rfl⟩
      | [q2], hp =>
        simp only [Option.some.injEq] at h
        subst h
        exact ⟨_, rfl, rfl, fun _ => rfl, fun _ => rfl, rfl, rfl⟩
      | _ :: _ :: _, hp => simp at h
    case h_3 ht =>
      simp only [worldPoint_carry hT, carry_sub, dot_turn hT, turn_neg]
      match rest, hp with
      | [], hp =>
        simp only [Option.some.injEq] at h
        subst h
        exact ⟨_, rfl, rfl, fun _ => rfl, fun hn => by rw [hp] at hn; simp at hn, rfl, rfl⟩
      | [q2], hp =>
        simp only [Option.some.injEq] at h
        subst h
        exact ⟨_, rfl, rfl, fun _ => rfl, fun _ => rfl, rfl, rfl⟩
      | _ :: _ :: _, hp => simp at h

/-! ## Points and rays -/

theorem testPoint_viewed (hT : Rigid T) (s : Shape F) (xf : Xf F) (p : Vec2 F) :
    s.testPoint (viewed T xf) (carry T p) = s.testPoint xf p := by
  cases s with
  | circle c => simp only [Shape.testPoint, Circle.testPoint, viewed_center, carry_sub, dot_turn hT]
  | polygon q => simp only [Shape.testPoint, Polygon.testPoint, viewed_p, carry_sub, viewed_q_mulTV hT]
  | edge _ => rfl
  | chain _ => rfl

theorem circle_rayCast_viewed (hT : Rigid T) (c : Circle F) (r : RayIn F) (xf : Xf F) :
    c.rayCast (carryRay T r) (viewed T xf) = (c.rayCast r xf).map (carryHit T) := by
  simp only [Circle.rayCast, carryRay, viewed_center, carry_sub, dot_turn hT, turn_smul, turn_add, normalize_turn hT]
  split
  · rfl
  · split <;> rfl

theorem edge_rayCast_viewed (hT : Rigid T) (e : Edge F) (r : RayIn F) (xf : Xf F) :
    e.rayCast (carryRay T r) (viewed T xf) = (e.rayCast r xf).map (carryHit T) := by
  simp only [Edge.rayCast, carryRay, viewed_p, carry_sub, viewed_q_mulTV hT, viewed_q_mulV, turn_neg]
  repeat' split
  all_goals rfl

theorem polygon_rayCast_viewed (hT : Rigid T) (e : Polygon F) (r : RayIn F) (xf : Xf F) :
    e.rayCast (carryRay T r) (viewed T xf) = (e.rayCast r xf).map (Option.map (carryHit T)) := by
  simp only [Polygon.rayCast, carryRay, viewed_p, carry_sub, viewed_q_mulTV hT, viewed_q_mulV]
  repeat' split
  all_goals rfl

theorem rayCast_viewed (hT : Rigid T) (s : Shape F) (r : RayIn F) (xf : Xf F) (i : Nat) :
    s.rayCast (carryRay T r) (viewed T xf) i = (s.rayCast r xf i).map (Option.map (carryHit T)) := by
  cases s with
  | circle c => simp only [Shape.rayCast, circle_rayCast_viewed hT]; rfl
  | polygon q => simp only [Shape.rayCast, polygon_rayCast_viewed hT]
  | edge e => simp only [Shape.rayCast, edge_rayCast_viewed hT]; rfl
  | chain c =>
    simp only [Shape.rayCast, Chain.rayCast]
    cases c.ends i with
    | none => rfl
    | some ab => simp only [Option.bind_eq_bind, Option.bind_some, edge_rayCast_viewed hT]; rfl

end
end B2
