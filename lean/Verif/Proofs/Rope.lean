import Verif.Spec.Rope
import Mathlib.Data.List.Forall2
import Mathlib.Tactic.Ring
import Mathlib.Tactic.FieldSimp
import Mathlib.Tactic.Linarith
import Mathlib.Tactic.LinearCombination

set_option linter.unusedSectionVars false

namespace B2
open Spec

section
variable {F : Type} [Field F] [LinearOrder F] [IsStrictOrderedRing F] [Elem F] [RopeElem F]

namespace Rope

/-- What solving constraints leaves of a vertex. -/
structure Still (x y : RopeVertex F) : Prop where
  bind : y.bind = x.bind
  p0 : y.p0 = x.p0
  v : y.v = x.v
  invMass : y.invMass = x.invMass
  pin : x.invMass = 0 → y.p = x.p

theorem Still.refl (x : RopeVertex F) : Still x x := ⟨rfl, rfl, rfl, rfl, fun _ => rfl⟩
theorem Still.trans {x y z : RopeVertex F} (a : Still x y) (b : Still y z) : Still x z :=
  ⟨b.bind.trans a.bind, b.p0.trans a.p0, b.v.trans a.v, b.invMass.trans a.invMass,
    fun h => (b.pin (a.invMass.trans h)).trans (a.pin h)⟩

def wsum (f : RopeVertex F → F) (vs : List (RopeVertex F)) : F := (vs.map fun x => f x / x.invMass).sum

/-- All movable. -/
def Free (vs : List (RopeVertex F)) : Prop := ∀ x ∈ vs, x.invMass ≠ 0

/-- Positions have been moved by impulses whose sum is `g`. -/
structure Kick (vs vs' : List (RopeVertex F)) (g : Vec2 F) : Prop where
  still : List.Forall₂ Still vs vs'
  sumx : Free vs → wsum (·.p.x) vs' = wsum (·.p.x) vs + g.x
  sumy : Free vs → wsum (·.p.y) vs' = wsum (·.p.y) vs + g.y

theorem forall₂_free {vs vs' : List (RopeVertex F)} {R : RopeVertex F → RopeVertex F → Prop} (hR : ∀ x y, R x y → y.invMass = x.invMass)
    (h : List.Forall₂ R vs vs') (f : Free vs) : Free vs' := by
  induction h with
  | nil => exact f
  | cons a _ ih =>
    intro y hy
    rcases List.mem_cons.mp hy with rfl | hy
    · rw [hR _ _ a]; exact f _ (by simp)
    · exact ih (fun x hx => f x (by simp [hx])) y hy

theorem Kick.refl (vs : List (RopeVertex F)) : Kick vs vs ⟨0, 0⟩ :=
  ⟨List.forall₂_same.mpr fun x _ => Still.refl x, fun _ => (add_zero _).symm, fun _ => (add_zero _).symm⟩

theorem Kick.trans {a b c : List (RopeVertex F)} {g h : Vec2 F} (k : Kick a b g) (l : Kick b c h) : Kick a c (g + h) := by
  refine ⟨?_, fun f => ?_, fun f => ?_⟩
  · have : ∀ (a b c : List (RopeVertex F)), List.Forall₂ Still a b → List.Forall₂ Still b c → List.Forall₂ Still a c := by
      intro a b c h
      induction h generalizing c with
      | nil => intro h; exact h
      | cons x _ ih =>
        intro h
        cases h with
        | cons y z => exact .cons (x.trans y) (ih _ z)
    exact this _ _ _ k.still l.still
  · rw [l.sumx (forall₂_free (fun _ _ h => h.invMass) k.still f), k.sumx f, Vec2.add_x]; ring
  · rw [l.sumy (forall₂_free (fun _ _ h => h.invMass) k.still f), k.sumy f, Vec2.add_y]; ring

theorem setP_kick {vs : List (RopeVertex F)} {i : Nat} {x : RopeVertex F} {q g : Vec2 F} (h : vs[i]? = some x)
    (hq : q = x.p + x.invMass * g) : Kick vs (setP vs i q) g := by
  induction vs generalizing i with
  | nil => simp at h
  | cons y ys ih =>
    cases i with
    | zero =>
      simp at h; subst h
      simp only [setP, List.modify_zero_cons]
      refine ⟨.cons ⟨rfl, rfl, rfl, rfl, fun e => ?_⟩ (List.forall₂_same.mpr fun x _ => Still.refl x), fun f => ?_, fun f => ?_⟩
      · show q = y.p
        rw [hq, e]; ext <;> simp
      · have := f y (by simp)
        simp only [wsum, List.map_cons, List.sum_cons, hq, Vec2.add_x, Vec2.smul_x]; field_simp; ring
      · have := f y (by simp)
        simp only [wsum, List.map_cons, List.sum_cons, hq, Vec2.add_y, Vec2.smul_y]; field_simp; ring
    | succ i =>
      have k := ih (i := i) (by simpa using h)
      simp only [setP, List.modify_succ_cons]
      refine ⟨.cons (Still.refl y) k.still, fun f => ?_, fun f => ?_⟩
      · have := k.sumx (fun x hx => f x (by simp [hx]))
        simp only [wsum, setP, List.map_cons, List.sum_cons] at this ⊢; rw [this]; ring
      · have := k.sumy (fun x hx => f x (by simp [hx]))
        simp only [wsum, setP, List.map_cons, List.sum_cons] at this ⊢; rw [this]; ring

theorem setP_other {vs : List (RopeVertex F)} {i j : Nat} (q : Vec2 F) (h : i ≠ j) : (setP vs i q)[j]? = vs[j]? := by
  simp [setP, List.getElem?_modify, h]

/-- What applying forces leaves of a vertex. -/
structure StillV (x y : RopeVertex F) : Prop where
  bind : y.bind = x.bind
  p : y.p = x.p
  p0 : y.p0 = x.p0
  invMass : y.invMass = x.invMass
  pin : x.invMass = 0 → y.v = x.v

theorem StillV.refl (x : RopeVertex F) : StillV x x := ⟨rfl, rfl, rfl, rfl, fun _ => rfl⟩
theorem StillV.trans {x y z : RopeVertex F} (a : StillV x y) (b : StillV y z) : StillV x z :=
  ⟨b.bind.trans a.bind, b.p.trans a.p, b.p0.trans a.p0, b.invMass.trans a.invMass,
    fun h => (b.pin (a.invMass.trans h)).trans (a.pin h)⟩

structure KickV (vs vs' : List (RopeVertex F)) (g : Vec2 F) : Prop where
  still : List.Forall₂ StillV vs vs'
  sumx : Free vs → wsum (·.v.x) vs' = wsum (·.v.x) vs + g.x
  sumy : Free vs → wsum (·.v.y) vs' = wsum (·.v.y) vs + g.y

theorem KickV.refl (vs : List (RopeVertex F)) : KickV vs vs ⟨0, 0⟩ :=
  ⟨List.forall₂_same.mpr fun x _ => StillV.refl x, fun _ => (add_zero _).symm, fun _ => (add_zero _).symm⟩

theorem KickV.trans {a b c : List (RopeVertex F)} {g h : Vec2 F} (k : KickV a b g) (l : KickV b c h) : KickV a c (g + h) := by
  refine ⟨?_, fun f => ?_, fun f => ?_⟩
  · have : ∀ (a b c : List (RopeVertex F)), List.Forall₂ StillV a b → List.Forall₂ StillV b c → List.Forall₂ StillV a c := by
      intro a b c h
      induction h generalizing c with
      | nil => intro h; exact h
      | cons x _ ih =>
        intro h
        cases h with
        | cons y z => exact .cons (x.trans y) (ih _ z)
    exact this _ _ _ k.still l.still
  · rw [l.sumx (forall₂_free (fun _ _ h => h.invMass) k.still f), k.sumx f, Vec2.add_x]; ring
  · rw [l.sumy (forall₂_free (fun _ _ h => h.invMass) k.still f), k.sumy f, Vec2.add_y]; ring

theorem addV_kick {vs : List (RopeVertex F)} {i : Nat} {x : RopeVertex F} {q g : Vec2 F} (h : vs[i]? = some x)
    (hq : q = x.invMass * g) : KickV vs (addV vs i q) g := by
  induction vs generalizing i with
  | nil => simp at h
  | cons y ys ih =>
    cases i with
    | zero =>
      simp at h; subst h
      simp only [addV, List.modify_zero_cons]
      refine ⟨.cons ⟨rfl, rfl, rfl, rfl, fun e => ?_⟩ (List.forall₂_same.mpr fun x _ => StillV.refl x), fun f => ?_, fun f => ?_⟩
      · show y.v + q = y.v
        rw [hq, e]; ext <;> simp
      · have := f y (by simp)
        simp only [wsum, List.map_cons, List.sum_cons, hq, Vec2.add_x, Vec2.smul_x]; field_simp; ring
      · have := f y (by simp)
        simp only [wsum, List.map_cons, List.sum_cons, hq, Vec2.add_y, Vec2.smul_y]; field_simp; ring
    | succ i =>
      have k := ih (i := i) (by simpa using h)
      simp only [addV, List.modify_succ_cons]
      refine ⟨.cons (StillV.refl y) k.still, fun f => ?_, fun f => ?_⟩
      · have := k.sumx (fun x hx => f x (by simp [hx]))
        simp only [wsum, addV, List.map_cons, List.sum_cons] at this ⊢; rw [this]; ring
      · have := k.sumy (fun x hx => f x (by simp [hx]))
        simp only [wsum, addV, List.map_cons, List.sum_cons] at this ⊢; rw [this]; ring

theorem addV_other {vs : List (RopeVertex F)} {i j : Nat} (q : Vec2 F) (h : i ≠ j) : (addV vs i q)[j]? = vs[j]? := by
  simp [addV, List.getElem?_modify, h]

def masses (vs : List (RopeVertex F)) : List F := vs.map (·.invMass)

theorem masses_get {vs : List (RopeVertex F)} {i : Nat} {x : RopeVertex F} (h : vs[i]? = some x) : (masses vs)[i]? = some x.invMass := by
  simp [masses, h]

theorem masses_of {vs vs' : List (RopeVertex F)} {R : RopeVertex F → RopeVertex F → Prop} (hR : ∀ x y, R x y → y.invMass = x.invMass)
    (h : List.Forall₂ R vs vs') : masses vs' = masses vs := by
  induction h with
  | nil => rfl
  | cons a _ ih => simp only [masses, List.map_cons] at ih ⊢; rw [hR _ _ a, ih]

theorem Kick.masses {vs vs' : List (RopeVertex F)} {g : Vec2 F} (k : Kick vs vs' g) : masses vs' = masses vs :=
  masses_of (fun _ _ h => h.invMass) k.still
theorem KickV.masses {vs vs' : List (RopeVertex F)} {g : Vec2 F} (k : KickV vs vs' g) : Rope.masses vs' = Rope.masses vs :=
  masses_of (fun _ _ h => h.invMass) k.still

/-- A stretch constraint of consecutive vertices that holds their masses. -/
structure StretchOk (ms : List F) (c : RopeStretch F) : Prop where
  i2 : c.i2 = c.i1 + 1
  m1 : ms[c.i1]? = some c.invMass1
  m2 : ms[c.i2]? = some c.invMass2

/-- A bending constraint of consecutive vertices that holds their masses. -/
structure BendOk (ms : List F) (c : RopeBend F) : Prop where
  i2 : c.i2 = c.i1 + 1
  i3 : c.i3 = c.i1 + 2
  m1 : ms[c.i1]? = some c.invMass1
  m2 : ms[c.i2]? = some c.invMass2
  m3 : ms[c.i3]? = some c.invMass3

theorem kick2 {vs : List (RopeVertex F)} {i j : Nat} (hij : i ≠ j) {x y : RopeVertex F} (hx : vs[i]? = some x) (hy : vs[j]? = some y)
    {q r g h : Vec2 F} (hq : q = x.p + x.invMass * g) (hr : r = y.p + y.invMass * h) : Kick vs (setP (setP vs i q) j r) (g + h) :=
  (setP_kick hx hq).trans (setP_kick (by rw [setP_other _ hij]; exact hy) hr)

theorem kick3 {vs : List (RopeVertex F)} {i j k : Nat} (hij : i ≠ j) (hik : i ≠ k) (hjk : j ≠ k) {x y z : RopeVertex F}
    (hx : vs[i]? = some x) (hy : vs[j]? = some y) (hz : vs[k]? = some z) {q r s g h l : Vec2 F}
    (hq : q = x.p + x.invMass * g) (hr : r = y.p + y.invMass * h) (hs : s = z.p + z.invMass * l) :
    Kick vs (setP (setP (setP vs i q) j r) k s) (g + h + l) :=
  (kick2 hij hx hy hq hr).trans (setP_kick (by rw [setP_other _ hjk, setP_other _ hik]; exact hz) hs)

theorem Kick.of_eq {vs vs' : List (RopeVertex F)} {g h : Vec2 F} (k : Kick vs vs' g) (e : g = h) : Kick vs vs' h := e ▸ k

theorem stretchPbd_kick {t : RopeTuning F} {vs vs' : List (RopeVertex F)} {c : RopeStretch F} (ok : StretchOk (masses vs) c)
    (e : stretchPbd t vs c = some vs') : Kick vs vs' ⟨0, 0⟩ := by
  simp only [stretchPbd, Option.bind_eq_bind, Option.bind_eq_some_iff] at e
  obtain ⟨x1, h1, x2, h2, e⟩ := e
  have m1 : c.invMass1 = x1.invMass := by have := ok.m1; rw [masses_get h1] at this; simpa using this.symm
  have m2 : c.invMass2 = x2.invMass := by have := ok.m2; rw [masses_get h2] at this; simpa using this.symm
  split_ifs at e with hs
  · cases e; exact Kick.refl _
  · simp only [pure, Option.some.injEq] at e
    subst e
    generalize (x2.p - x1.p).normalize = n
    refine (kick2 (g := -(t.stretchStiffness / (c.invMass1 + c.invMass2) * (c.l - n.2)) * n.1)
      (h := (t.stretchStiffness / (c.invMass1 + c.invMass2) * (c.l - n.2)) * n.1) ?_ h1 h2 ?_ ?_).of_eq ?_
    · rw [ok.i2]; omega
    · rw [← m1]; ext <;> simp only [Vec2.add_x, Vec2.add_y, Vec2.sub_x, Vec2.sub_y, Vec2.smul_x, Vec2.smul_y] <;> field_simp <;> ring
    · rw [← m2]; ext <;> simp only [Vec2.add_x, Vec2.add_y, Vec2.sub_x, Vec2.sub_y, Vec2.smul_x, Vec2.smul_y] <;> field_simp
    · ext <;> simp only [Vec2.add_x, Vec2.add_y, Vec2.smul_x, Vec2.smul_y] <;> ring

theorem stretchXpbd_kick {dt : F} {vs : List (RopeVertex F)} {c : RopeStretch F} {s : List (RopeVertex F) × RopeStretch F}
    (ok : StretchOk (masses vs) c) (e : stretchXpbd dt vs c = some s) : Kick vs s.1 ⟨0, 0⟩ ∧ ∃ l, s.2 = { c with lambda := l } := by
  simp only [stretchXpbd, Option.bind_eq_bind, Option.bind_eq_some_iff] at e
  obtain ⟨x1, h1, x2, h2, e⟩ := e
  have m1 : c.invMass1 = x1.invMass := by have := ok.m1; rw [masses_get h1] at this; simpa using this.symm
  have m2 : c.invMass2 = x2.invMass := by have := ok.m2; rw [masses_get h2] at this; simpa using this.symm
  split_ifs at e with hs
  · cases e; exact ⟨Kick.refl _, c.lambda, rfl⟩
  · simp only [Option.bind_eq_some_iff] at e
    obtain ⟨alpha, -, sigma, -, imp, -, e⟩ := e
    simp only [pure, Option.some.injEq] at e
    subst e
    generalize (x2.p - x1.p).normalize = n
    refine ⟨(kick2 (g := imp * -n.1) (h := imp * n.1) ?_ h1 h2 ?_ ?_).of_eq ?_, _, rfl⟩
    · rw [ok.i2]; omega
    · rw [← m1]; ext <;> simp only [Vec2.add_x, Vec2.add_y, Vec2.smul_x, Vec2.smul_y] <;> ring
    · rw [← m2]; ext <;> simp only [Vec2.add_x, Vec2.add_y, Vec2.smul_x, Vec2.smul_y] <;> ring
    · ext <;> simp only [Vec2.add_x, Vec2.add_y, Vec2.smul_x, Vec2.smul_y, Vec2.neg_x, Vec2.neg_y] <;> ring

theorem bendMove_kick {vs : List (RopeVertex F)} {c : RopeBend F} (ok : BendOk (masses vs) c) {x1 x2 x3 : RopeVertex F}
    (h1 : vs[c.i1]? = some x1) (h2 : vs[c.i2]? = some x2) (h3 : vs[c.i3]? = some x3) (imp : F) (j1 j2 j3 : Vec2 F) :
    Kick vs (bendMove vs c x1 x2 x3 imp j1 j2 j3) (imp * (j1 + j2 + j3)) := by
  have m1 : c.invMass1 = x1.invMass := by have := ok.m1; rw [masses_get h1] at this; simpa using this.symm
  have m2 : c.invMass2 = x2.invMass := by have := ok.m2; rw [masses_get h2] at this; simpa using this.symm
  have m3 : c.invMass3 = x3.invMass := by have := ok.m3; rw [masses_get h3] at this; simpa using this.symm
  unfold bendMove
  refine (kick3 (g := imp * j1) (h := imp * j2) (l := imp * j3) ?_ ?_ ?_ h1 h2 h3 ?_ ?_ ?_).of_eq ?_
  · rw [ok.i2]; omega
  · rw [ok.i3]; omega
  · rw [ok.i2, ok.i3]; omega
  · rw [← m1]; ext <;> simp only [Vec2.add_x, Vec2.add_y, Vec2.smul_x, Vec2.smul_y] <;> ring
  · rw [← m2]; ext <;> simp only [Vec2.add_x, Vec2.add_y, Vec2.smul_x, Vec2.smul_y] <;> ring
  · rw [← m3]; ext <;> simp only [Vec2.add_x, Vec2.add_y, Vec2.smul_x, Vec2.smul_y] <;> ring
  · ext <;> simp only [Vec2.add_x, Vec2.add_y, Vec2.smul_x, Vec2.smul_y] <;> ring

theorem bendGradient_sum (d1 d2 : Vec2 F) (a b : F) (k : F) :
    k * ((bendGradient d1 d2 a b).1 + (bendGradient d1 d2 a b).2.1 + (bendGradient d1 d2 a b).2.2) = (⟨0, 0⟩ : Vec2 F) := by
  ext <;> simp only [bendGradient, Vec2.add_x, Vec2.add_y, Vec2.smul_x, Vec2.smul_y, Vec2.neg_x, Vec2.neg_y, Vec2.sub_x, Vec2.sub_y] <;> ring

theorem bendPbdAngle_kick {t : RopeTuning F} {vs vs' : List (RopeVertex F)} {c : RopeBend F} (ok : BendOk (masses vs) c)
    (e : bendPbdAngle t vs c = some vs') : Kick vs vs' ⟨0, 0⟩ := by
  simp only [bendPbdAngle, Option.bind_eq_bind, Option.bind_eq_some_iff] at e
  obtain ⟨x1, h1, x2, h2, x3, h3, e⟩ := e
  split_ifs at e with hs
  · cases e; exact Kick.refl _
  all_goals
    simp only [Option.bind_eq_some_iff] at e
    obtain ⟨imp, -, e⟩ := e
    simp only [pure, Option.some.injEq] at e
    subst e
    exact (bendMove_kick ok h1 h2 h3 _ _ _ _).of_eq (bendGradient_sum _ _ _ _ _)

theorem bendXpbdAngle_kick {t : RopeTuning F} {dt : F} {vs : List (RopeVertex F)} {c : RopeBend F} {s : List (RopeVertex F) × RopeBend F}
    (ok : BendOk (masses vs) c) (e : bendXpbdAngle t dt vs c = some s) : Kick vs s.1 ⟨0, 0⟩ ∧ ∃ l, s.2 = { c with lambda := l } := by
  simp only [bendXpbdAngle, Option.bind_eq_bind, Option.bind_eq_some_iff] at e
  obtain ⟨x1, h1, x2, h2, x3, h3, e⟩ := e
  split_ifs at e with hs hs2
  · cases e; exact ⟨Kick.refl _, c.lambda, rfl⟩
  · cases e; exact ⟨Kick.refl _, c.lambda, rfl⟩
  · simp only [Option.bind_eq_some_iff] at e
    obtain ⟨alpha, -, sigma, -, imp, -, e⟩ := e
    simp only [pure, Option.some.injEq] at e
    subst e
    exact ⟨(bendMove_kick ok h1 h2 h3 _ _ _ _).of_eq (bendGradient_sum _ _ _ _ _), _, rfl⟩

theorem bendForce_kick {t : RopeTuning F} {dt : F} {vs vs' : List (RopeVertex F)} {c : RopeBend F} (ok : BendOk (masses vs) c)
    (e : bendForce t dt vs c = some vs') : KickV vs vs' ⟨0, 0⟩ := by
  simp only [bendForce, Option.bind_eq_bind, Option.bind_eq_some_iff] at e
  obtain ⟨x1, h1, x2, h2, x3, h3, e⟩ := e
  have m1 : c.invMass1 = x1.invMass := by have := ok.m1; rw [masses_get h1] at this; simpa using this.symm
  have m2 : c.invMass2 = x2.invMass := by have := ok.m2; rw [masses_get h2] at this; simpa using this.symm
  have m3 : c.invMass3 = x3.invMass := by have := ok.m3; rw [masses_get h3] at this; simpa using this.symm
  have n12 : c.i1 ≠ c.i2 := by rw [ok.i2]; omega
  have n13 : c.i1 ≠ c.i3 := by rw [ok.i3]; omega
  have n23 : c.i2 ≠ c.i3 := by rw [ok.i2, ok.i3]; omega
  split_ifs at e with hs hs2
  · cases e; exact KickV.refl _
  · cases e; exact KickV.refl _
  · simp only [pure, Option.some.injEq] at e
    subst e
    generalize -dt * _ = imp
    generalize bendLengths t c (x2.p - x1.p) (x3.p - x2.p) = l
    have k := ((addV_kick (g := imp * (bendGradient (x2.p - x1.p) (x3.p - x2.p) l.1 l.2).1)
      (q := (c.invMass1 * imp) * (bendGradient (x2.p - x1.p) (x3.p - x2.p) l.1 l.2).1) h1
      (by rw [← m1]; ext <;> simp only [Vec2.smul_x, Vec2.smul_y] <;> ring)).trans
      (addV_kick (g := imp * (bendGradient (x2.p - x1.p) (x3.p - x2.p) l.1 l.2).2.1)
      (q := (c.invMass2 * imp) * (bendGradient (x2.p - x1.p) (x3.p - x2.p) l.1 l.2).2.1) (i := c.i2) (x := x2) (by rw [addV_other _ n12]; exact h2)
      (by rw [← m2]; ext <;> simp only [Vec2.smul_x, Vec2.smul_y] <;> ring))).trans
      (addV_kick (g := imp * (bendGradient (x2.p - x1.p) (x3.p - x2.p) l.1 l.2).2.2)
      (q := (c.invMass3 * imp) * (bendGradient (x2.p - x1.p) (x3.p - x2.p) l.1 l.2).2.2) (i := c.i3) (x := x3)
      (by rw [addV_other _ n23, addV_other _ n13]; exact h3)
      (by rw [← m3]; ext <;> simp only [Vec2.smul_x, Vec2.smul_y] <;> ring))
    have hz := bendGradient_sum (x2.p - x1.p) (x3.p - x2.p) l.1 l.2 imp
    generalize bendGradient (x2.p - x1.p) (x3.p - x2.p) l.1 l.2 = j at k hz ⊢
    have e0 : imp * j.1 + imp * j.2.1 + imp * j.2.2 = (⟨0, 0⟩ : Vec2 F) := by
      rw [← hz]; ext <;> simp only [Vec2.add_x, Vec2.add_y, Vec2.smul_x, Vec2.smul_y] <;> ring
    exact e0 ▸ k

theorem bendPbdDistance_kick {t : RopeTuning F} {vs vs' : List (RopeVertex F)} {c : RopeBend F} (ok : BendOk (masses vs) c)
    (e : bendPbdDistance t vs c = some vs') : Kick vs vs' ⟨0, 0⟩ := by
  simp only [bendPbdDistance, Option.bind_eq_bind, Option.bind_eq_some_iff] at e
  obtain ⟨x1, h1, x2, h2, e⟩ := e
  have m1 : c.invMass1 = x1.invMass := by have := ok.m1; rw [masses_get h1] at this; simpa using this.symm
  have m2 : c.invMass3 = x2.invMass := by have := ok.m3; rw [masses_get h2] at this; simpa using this.symm
  split_ifs at e with hs
  · cases e; exact Kick.refl _
  · simp only [pure, Option.some.injEq] at e
    subst e
    generalize (x2.p - x1.p).normalize = n
    refine (kick2 (g := -(t.bendStiffness / (c.invMass1 + c.invMass3) * (c.l1 + c.l2 - n.2)) * n.1)
      (h := (t.bendStiffness / (c.invMass1 + c.invMass3) * (c.l1 + c.l2 - n.2)) * n.1) ?_ h1 h2 ?_ ?_).of_eq ?_
    · rw [ok.i3]; omega
    · rw [← m1]; ext <;> simp only [Vec2.add_x, Vec2.add_y, Vec2.sub_x, Vec2.sub_y, Vec2.smul_x, Vec2.smul_y] <;> field_simp <;> ring
    · rw [← m2]; ext <;> simp only [Vec2.add_x, Vec2.add_y, Vec2.sub_x, Vec2.sub_y, Vec2.smul_x, Vec2.smul_y] <;> field_simp
    · ext <;> simp only [Vec2.add_x, Vec2.add_y, Vec2.smul_x, Vec2.smul_y] <;> ring

theorem bendPbdHeight_kick {t : RopeTuning F} {vs vs' : List (RopeVertex F)} {c : RopeBend F} (ok : BendOk (masses vs) c)
    (e : bendPbdHeight t vs c = some vs') : ∃ g : Vec2 F, Kick vs vs' g ∧ (c.alpha1 + c.alpha2 = 1 → g = ⟨0, 0⟩) := by
  simp only [bendPbdHeight, Option.bind_eq_bind, Option.bind_eq_some_iff] at e
  obtain ⟨x1, h1, x2, h2, x3, h3, e⟩ := e
  split_ifs at e with hs hs2
  · cases e; exact ⟨_, Kick.refl _, fun _ => rfl⟩
  · cases e; exact ⟨_, Kick.refl _, fun _ => rfl⟩
  · simp only [pure, Option.some.injEq] at e
    subst e
    refine ⟨_, bendMove_kick ok h1 h2 h3 _ _ _ _, fun ha => ?_⟩
    generalize ((1 / _ : F) * (_ : Vec2 F) : Vec2 F) = dh
    generalize -t.bendStiffness * _ * _ = k
    ext <;> simp only [Vec2.add_x, Vec2.add_y, Vec2.smul_x, Vec2.smul_y, Vec2.neg_x, Vec2.neg_y]
    · linear_combination k * dh.x * ha
    · linear_combination k * dh.y * ha

theorem bendPbdTriangle_kick {t : RopeTuning F} {vs vs' : List (RopeVertex F)} {c : RopeBend F} (ok : BendOk (masses vs) c)
    (e : bendPbdTriangle t vs c = some vs') : Kick vs vs' ⟨0, 0⟩ := by
  simp only [bendPbdTriangle, Option.bind_eq_bind, Option.bind_eq_some_iff] at e
  obtain ⟨x1, h1, x2, h2, x3, h3, k, -, e⟩ := e
  have m1 : c.invMass1 = x1.invMass := by have := ok.m1; rw [masses_get h1] at this; simpa using this.symm
  have m2 : c.invMass2 = x2.invMass := by have := ok.m2; rw [masses_get h2] at this; simpa using this.symm
  have m3 : c.invMass3 = x3.invMass := by have := ok.m3; rw [masses_get h3] at this; simpa using this.symm
  simp only [pure, Option.some.injEq] at e
  subst e
  generalize x2.p - _ = d
  refine (kick3 (g := (2 * k) * d) (h := (-4 * k) * d) (l := (2 * k) * d) ?_ ?_ ?_ h1 h2 h3 ?_ ?_ ?_).of_eq ?_
  · rw [ok.i2]; omega
  · rw [ok.i3]; omega
  · rw [ok.i2, ok.i3]; omega
  · rw [← m1]; ext <;> simp only [Vec2.add_x, Vec2.add_y, Vec2.smul_x, Vec2.smul_y] <;> ring
  · rw [← m2]; ext <;> simp only [Vec2.add_x, Vec2.add_y, Vec2.smul_x, Vec2.smul_y] <;> ring
  · rw [← m3]; ext <;> simp only [Vec2.add_x, Vec2.add_y, Vec2.smul_x, Vec2.smul_y] <;> ring
  · ext <;> simp only [Vec2.add_x, Vec2.add_y, Vec2.smul_x, Vec2.smul_y] <;> ring

/-- Positions have been moved by impulses, which sum to zero if `bal`. -/
def Kb (bal : Prop) (vs vs' : List (RopeVertex F)) : Prop := ∃ g : Vec2 F, Kick vs vs' g ∧ (bal → g = ⟨0, 0⟩)

theorem Kb.refl (bal : Prop) (vs : List (RopeVertex F)) : Kb bal vs vs := ⟨_, Kick.refl _, fun _ => rfl⟩
theorem Kb.trans {bal : Prop} {a b c : List (RopeVertex F)} (h : Kb bal a b) (k : Kb bal b c) : Kb bal a c := by
  obtain ⟨g, h, hg⟩ := h
  obtain ⟨l, k, hl⟩ := k
  exact ⟨_, h.trans k, fun p => by rw [hg p, hl p]; ext <;> simp⟩
theorem Kb.masses {bal : Prop} {a b : List (RopeVertex F)} (h : Kb bal a b) : Rope.masses b = Rope.masses a := by
  obtain ⟨g, h, _⟩ := h; exact h.masses
theorem Kb.of {bal : Prop} {a b : List (RopeVertex F)} (h : Kick a b ⟨0, 0⟩) : Kb bal a b := ⟨_, h, fun _ => rfl⟩

theorem foldlM_kb {C : Type} {bal : Prop} {P : C → Prop} {ms : List F} {f : List (RopeVertex F) → C → Option (List (RopeVertex F))}
    (hf : ∀ vs c vs', masses vs = ms → P c → f vs c = some vs' → Kb bal vs vs') :
    ∀ (cs : List C) (vs vs' : List (RopeVertex F)), masses vs = ms → (∀ c ∈ cs, P c) → cs.foldlM f vs = some vs' → Kb bal vs vs' := by
  intro cs
  induction cs with
  | nil => intro vs vs' _ _ e; cases e; exact Kb.refl _ _
  | cons c cs ih =>
    intro vs vs' hm hP e
    simp only [List.foldlM_cons, Option.bind_eq_bind, Option.bind_eq_some_iff] at e
    obtain ⟨v1, e1, e⟩ := e
    have k := hf _ _ _ hm (hP c (by simp)) e1
    exact k.trans (ih _ _ (k.masses.trans hm) (fun x hx => hP x (by simp [hx])) e)

theorem foldlM_kv {C : Type} {P : C → Prop} {ms : List F} {f : List (RopeVertex F) → C → Option (List (RopeVertex F))}
    (hf : ∀ vs c vs', masses vs = ms → P c → f vs c = some vs' → KickV vs vs' ⟨0, 0⟩) :
    ∀ (cs : List C) (vs vs' : List (RopeVertex F)), masses vs = ms → (∀ c ∈ cs, P c) → cs.foldlM f vs = some vs' → KickV vs vs' ⟨0, 0⟩ := by
  intro cs
  induction cs with
  | nil => intro vs vs' _ _ e; cases e; exact KickV.refl _
  | cons c cs ih =>
    intro vs vs' hm hP e
    simp only [List.foldlM_cons, Option.bind_eq_bind, Option.bind_eq_some_iff] at e
    obtain ⟨v1, e1, e⟩ := e
    have k := hf _ _ _ hm (hP c (by simp)) e1
    have := k.trans (ih _ _ (k.masses.trans hm) (fun x hx => hP x (by simp [hx])) e)
    have z : ((⟨0, 0⟩ : Vec2 F) + ⟨0, 0⟩) = ⟨0, 0⟩ := by ext <;> simp
    exact z ▸ this

theorem loopM_kb {C : Type} {bal : Prop} {P : C → Prop} {R : C → C → Prop} {ms : List F}
    {f : List (RopeVertex F) → C → Option (List (RopeVertex F) × C)}
    (hf : ∀ vs c s, masses vs = ms → P c → f vs c = some s → Kb bal vs s.1 ∧ R c s.2) :
    ∀ (cs : List C) (vs : List (RopeVertex F)) (s : List (RopeVertex F) × List C), masses vs = ms → (∀ c ∈ cs, P c) →
      loopM f vs cs = some s → Kb bal vs s.1 ∧ List.Forall₂ R cs s.2 := by
  intro cs
  induction cs with
  | nil => intro vs s _ _ e; cases e; exact ⟨Kb.refl _ _, .nil⟩
  | cons c cs ih =>
    intro vs s hm hP e
    simp only [loopM, Option.bind_eq_bind, Option.bind_eq_some_iff] at e
    obtain ⟨v1, e1, v2, e2, e⟩ := e
    cases e
    obtain ⟨k, hr⟩ := hf _ _ _ hm (hP c (by simp)) e1
    obtain ⟨k2, hr2⟩ := ih _ _ (k.masses.trans hm) (fun x hx => hP x (by simp [hx])) e2
    exact ⟨k.trans k2, .cons hr hr2⟩

/-- The vertices when the rope is made. -/
def start (d : RopeDef F) : List (RopeVertex F) := d.vertices.map (createVertex d.position)

/-- A bending constraint as `create` and `set_tuning` leave it, up to the accumulated impulse. -/
def BendOf (d : RopeDef F) (t : RopeTuning F) (k : Nat) (c : RopeBend F) : Prop :=
  ∃ c0 c1 l, createBend (start d) c0 k = some c1 ∧ c = { tuneBend t c1 with lambda := l }
def StretchOf (d : RopeDef F) (t : RopeTuning F) (k : Nat) (c : RopeStretch F) : Prop :=
  ∃ c1 l, createStretch (start d) k = some c1 ∧ c = { tuneStretch t c1 with lambda := l }

/-- Holds of all constraints while a rope made from `d` is used. -/
structure ConsInv (d : RopeDef F) (r : Rope F) : Prop where
  nb : r.bends.length = d.vertices.length - 2
  ns : r.stretches.length = d.vertices.length - 1
  bend : ∀ k c, r.bends[k]? = some c → BendOf d r.tuning k c
  stretch : ∀ k c, r.stretches[k]? = some c → StretchOf d r.tuning k c

/-- A vertex is made from its definition. -/
structure VertOf (x : RopeDefVertex F) (y : RopeVertex F) : Prop where
  bind : y.bind = x.position
  invMass : y.invMass = if x.mass > 0 then 1 / x.mass else 0

/-- Holds between calls of a rope made from `d`. -/
structure Inv (d : RopeDef F) (r : Rope F) : Prop where
  cons : ConsInv d r
  vert : List.Forall₂ (fun x y => VertOf x y ∧ y.p0 = y.p) d.vertices r.vertices
  gravity : r.gravity = d.gravity

theorem masses_start (d : RopeDef F) {vs : List (RopeVertex F)} (h : List.Forall₂ VertOf d.vertices vs) : masses vs = masses (start d) := by
  unfold start masses
  generalize d.vertices = ds at h
  induction h with
  | nil => rfl
  | cons a _ ih => simp only [List.map_cons, ih]; rw [a.invMass]; rfl

theorem createBend_ok {vs : List (RopeVertex F)} {c0 c : RopeBend F} {k : Nat} (h : createBend vs c0 k = some c) :
    BendOk (masses vs) c ∧ c.i1 = k := by
  simp only [createBend, Option.bind_eq_bind, Option.bind_eq_some_iff] at h
  obtain ⟨x1, h1, x2, h2, x3, h3, h⟩ := h
  split_ifs at h <;> cases h <;> exact ⟨⟨rfl, rfl, masses_get h1, masses_get h2, masses_get h3⟩, rfl⟩

theorem tuneBend_same (t : RopeTuning F) (c : RopeBend F) : ∃ a b, tuneBend t c = { c with spring := a, damper := b } := by
  unfold tuneBend; dsimp only; split_ifs <;> exact ⟨_, _, rfl⟩
theorem tuneStretch_same (t : RopeTuning F) (c : RopeStretch F) : ∃ a b, tuneStretch t c = { c with spring := a, damper := b } := by
  unfold tuneStretch; dsimp only; split_ifs <;> exact ⟨_, _, rfl⟩

theorem BendOf.ok {d : RopeDef F} {t : RopeTuning F} {k : Nat} {c : RopeBend F} (h : BendOf d t k c) : BendOk (masses (start d)) c := by
  obtain ⟨c0, c1, l, h, rfl⟩ := h
  obtain ⟨a, b, e⟩ := tuneBend_same t c1
  rw [e]
  have := (createBend_ok h).1
  exact ⟨this.i2, this.i3, this.m1, this.m2, this.m3⟩

theorem StretchOf.ok {d : RopeDef F} {t : RopeTuning F} {k : Nat} {c : RopeStretch F} (h : StretchOf d t k c) :
    StretchOk (masses (start d)) c := by
  obtain ⟨c1, l, h, rfl⟩ := h
  obtain ⟨a, b, e⟩ := tuneStretch_same t c1
  rw [e]
  simp only [createStretch, Option.bind_eq_bind, Option.bind_eq_some_iff] at h
  obtain ⟨x1, h1, x2, h2, h⟩ := h
  cases h
  exact ⟨rfl, masses_get h1, masses_get h2⟩

/-- When the height model conserves momentum. -/
def Level (d : RopeDef F) (t : RopeTuning F) : Prop := t.bending = .pbdHeight → SegmentsDistinct d ∧ NotFolded d

theorem lengthSquared_zero {a : Vec2 F} (h : a.lengthSquared = 0) : a = ⟨0, 0⟩ := by
  have hx := mul_self_nonneg a.x
  have hy := mul_self_nonneg a.y
  unfold Vec2.lengthSquared at h
  ext
  · exact mul_self_eq_zero.mp (by linarith)
  · exact mul_self_eq_zero.mp (by linarith)

theorem sub_zero_eq {a b : Vec2 F} (h : a - b = ⟨0, 0⟩) : a = b := by
  have hx := congrArg Vec2.x h
  have hy := congrArg Vec2.y h
  simp only [Vec2.sub_x, Vec2.sub_y] at hx hy
  ext <;> linarith

theorem start_get {d : RopeDef F} {i : Nat} {x : RopeVertex F} (h : (start d)[i]? = some x) :
    ∃ y, d.vertices[i]? = some y ∧ x = createVertex d.position y := by
  simp only [start, List.getElem?_map, Option.map_eq_some_iff] at h
  obtain ⟨y, h, rfl⟩ := h
  exact ⟨y, h, rfl⟩

theorem createVertex_ne {p : Vec2 F} {x y : RopeDefVertex F} (h : x.position ≠ y.position) : (createVertex p y).p - (createVertex p x).p ≠ ⟨0, 0⟩ := by
  intro e
  have := sub_zero_eq e
  apply h
  simp only [createVertex] at this
  have hx := congrArg Vec2.x this
  have hy := congrArg Vec2.y this
  simp only [Vec2.add_x, Vec2.add_y] at hx hy
  ext <;> linarith

theorem createBend_alpha {d : RopeDef F} (hs : SegmentsDistinct d) (hf : NotFolded d) {c0 c : RopeBend F} {k : Nat}
    (h : createBend (start d) c0 k = some c) : c.alpha1 + c.alpha2 = 1 := by
  simp only [createBend, Option.bind_eq_bind, Option.bind_eq_some_iff] at h
  obtain ⟨x1, h1, x2, h2, x3, h3, h⟩ := h
  obtain ⟨y1, g1, rfl⟩ := start_get h1
  obtain ⟨y2, g2, rfl⟩ := start_get h2
  obtain ⟨y3, g3, rfl⟩ := start_get h3
  have n12 := createVertex_ne (p := d.position) (hs _ _ _ g1 g2)
  have n23 := createVertex_ne (p := d.position) (hs _ _ _ g2 g3)
  have n13 := createVertex_ne (p := d.position) (hf _ _ _ g1 g3)
  split_ifs at h with a b
  · rcases mul_eq_zero.mp a with a | a
    · exact absurd (lengthSquared_zero a) n12
    · exact absurd (lengthSquared_zero a) n23
  · exact absurd (lengthSquared_zero b) n13
  · cases h
    show dot _ _ / _ + dot _ _ / _ = 1
    rw [← add_div, div_eq_one_iff_eq b]
    simp only [dot, Vec2.lengthSquared, Vec2.sub_x, Vec2.sub_y]; ring

theorem mem_get {α : Type} {l : List α} {x : α} (h : x ∈ l) : ∃ k : Nat, l[k]? = some x := List.getElem?_of_mem h

theorem solveBends_kb {d : RopeDef F} {dt : F} {r r' : Rope F} (ci : ConsInv d r) (hm : masses r.vertices = masses (start d))
    (e : solveBends dt r = some r') :
    Kb (Level d r.tuning) r.vertices r'.vertices ∧ ConsInv d r' ∧ r'.tuning = r.tuning ∧ r'.gravity = r.gravity := by
  have hall : ∀ c ∈ r.bends, ∃ k, BendOf d r.tuning k c := fun c hc => by
    obtain ⟨k, hk⟩ := mem_get hc; exact ⟨k, ci.bend k c hk⟩
  unfold solveBends at e
  cases hb : r.tuning.bending with
  | springAngle => simp only [hb] at e; cases e; exact ⟨Kb.refl _ _, ci, rfl, rfl⟩
  | pbdAngle =>
    simp only [hb, Option.bind_eq_bind, Option.bind_eq_some_iff] at e
    obtain ⟨vs, e, e'⟩ := e
    cases e'
    refine ⟨foldlM_kb (P := fun c => ∃ k, BendOf d r.tuning k c) ?_ _ _ _ hm hall e, ⟨ci.nb, ci.ns, ci.bend, ci.stretch⟩, rfl, rfl⟩
    rintro vs c vs' hm ⟨k, hc⟩ e
    exact Kb.of (bendPbdAngle_kick (by rw [hm]; exact hc.ok) e)
  | xpbdAngle =>
    simp only [hb] at e
    split_ifs at e
    simp only [Option.bind_eq_bind, Option.bind_eq_some_iff] at e
    obtain ⟨s, e, e'⟩ := e
    cases e'
    obtain ⟨k, fr⟩ := loopM_kb (bal := Level d r.tuning) (P := fun c => ∃ k, BendOf d r.tuning k c) (R := fun c c' => ∃ l, c' = { c with lambda := l })
      (by
        rintro vs c vs' hm ⟨k, hc⟩ e
        obtain ⟨a, b⟩ := bendXpbdAngle_kick (by rw [hm]; exact hc.ok) e
        exact ⟨Kb.of a, b⟩) _ _ _ hm hall e
    refine ⟨k, ⟨fr.length_eq ▸ ci.nb, ci.ns, fun k c hc => ?_, ci.stretch⟩, rfl, rfl⟩
    obtain ⟨c0, h0, l, rfl⟩ : ∃ c0, r.bends[k]? = some c0 ∧ ∃ l, c = { c0 with lambda := l } := by
      have := (List.forall₂_iff_get.mp fr)
      obtain ⟨hk, rfl⟩ := List.getElem?_eq_some_iff.mp hc
      have hk0 : k < r.bends.length := by rw [fr.length_eq]; exact hk
      exact ⟨r.bends[k], List.getElem?_eq_some_iff.mpr ⟨hk0, rfl⟩, this.2 k hk0 hk⟩
    obtain ⟨a, b, l', h, rfl⟩ := ci.bend k c0 h0
    exact ⟨a, b, l, h, rfl⟩
  | pbdDistance =>
    simp only [hb, Option.bind_eq_bind, Option.bind_eq_some_iff] at e
    obtain ⟨vs, e, e'⟩ := e
    cases e'
    refine ⟨foldlM_kb (P := fun c => ∃ k, BendOf d r.tuning k c) ?_ _ _ _ hm hall e, ⟨ci.nb, ci.ns, ci.bend, ci.stretch⟩, rfl, rfl⟩
    rintro vs c vs' hm ⟨k, hc⟩ e
    exact Kb.of (bendPbdDistance_kick (by rw [hm]; exact hc.ok) e)
  | pbdHeight =>
    simp only [hb, Option.bind_eq_bind, Option.bind_eq_some_iff] at e
    obtain ⟨vs, e, e'⟩ := e
    cases e'
    refine ⟨foldlM_kb (P := fun c => ∃ k, BendOf d r.tuning k c) ?_ _ _ _ hm hall e, ⟨ci.nb, ci.ns, ci.bend, ci.stretch⟩, rfl, rfl⟩
    rintro vs c vs' hm ⟨k, hc⟩ e
    obtain ⟨g, kk, hg⟩ := bendPbdHeight_kick (by rw [hm]; exact hc.ok) e
    refine ⟨g, kk, fun lv => hg ?_⟩
    obtain ⟨a, b⟩ := lv hb
    obtain ⟨c0, c1, l, h, rfl⟩ := hc
    obtain ⟨u, v, e⟩ := tuneBend_same r.tuning c1
    have := createBend_alpha a b h
    rw [e]
    exact this
  | pbdTriangle =>
    simp only [hb, Option.bind_eq_bind, Option.bind_eq_some_iff] at e
    obtain ⟨vs, e, e'⟩ := e
    cases e'
    refine ⟨foldlM_kb (P := fun c => ∃ k, BendOf d r.tuning k c) ?_ _ _ _ hm hall e, ⟨ci.nb, ci.ns, ci.bend, ci.stretch⟩, rfl, rfl⟩
    rintro vs c vs' hm ⟨k, hc⟩ e
    exact Kb.of (bendPbdTriangle_kick (by rw [hm]; exact hc.ok) e)

theorem solveStretches_kb {d : RopeDef F} {dt : F} {bal : Prop} {r r' : Rope F} (ci : ConsInv d r) (hm : masses r.vertices = masses (start d))
    (e : solveStretches dt r = some r') :
    Kb bal r.vertices r'.vertices ∧ ConsInv d r' ∧ r'.tuning = r.tuning ∧ r'.gravity = r.gravity := by
  have hall : ∀ c ∈ r.stretches, ∃ k, StretchOf d r.tuning k c := fun c hc => by
    obtain ⟨k, hk⟩ := mem_get hc; exact ⟨k, ci.stretch k c hk⟩
  unfold solveStretches at e
  cases hb : r.tuning.stretching with
  | pbd =>
    simp only [hb, Option.bind_eq_bind, Option.bind_eq_some_iff] at e
    obtain ⟨vs, e, e'⟩ := e
    cases e'
    refine ⟨foldlM_kb (P := fun c => ∃ k, StretchOf d r.tuning k c) ?_ _ _ _ hm hall e, ⟨ci.nb, ci.ns, ci.bend, ci.stretch⟩, rfl, rfl⟩
    rintro vs c vs' hm ⟨k, hc⟩ e
    exact Kb.of (stretchPbd_kick (by rw [hm]; exact hc.ok) e)
  | xpbd =>
    simp only [hb] at e
    split_ifs at e
    simp only [Option.bind_eq_bind, Option.bind_eq_some_iff] at e
    obtain ⟨s, e, e'⟩ := e
    cases e'
    obtain ⟨k, fr⟩ := loopM_kb (bal := bal) (P := fun c => ∃ k, StretchOf d r.tuning k c) (R := fun c c' => ∃ l, c' = { c with lambda := l })
      (by
        rintro vs c vs' hm ⟨k, hc⟩ e
        obtain ⟨a, b⟩ := stretchXpbd_kick (by rw [hm]; exact hc.ok) e
        exact ⟨Kb.of a, b⟩) _ _ _ hm hall e
    refine ⟨k, ⟨ci.nb, fr.length_eq ▸ ci.ns, ci.bend, fun k c hc => ?_⟩, rfl, rfl⟩
    obtain ⟨c0, h0, l, rfl⟩ : ∃ c0, r.stretches[k]? = some c0 ∧ ∃ l, c = { c0 with lambda := l } := by
      have := (List.forall₂_iff_get.mp fr)
      obtain ⟨hk, rfl⟩ := List.getElem?_eq_some_iff.mp hc
      have hk0 : k < r.stretches.length := by rw [fr.length_eq]; exact hk
      exact ⟨r.stretches[k], List.getElem?_eq_some_iff.mpr ⟨hk0, rfl⟩, this.2 k hk0 hk⟩
    obtain ⟨a, l', h, rfl⟩ := ci.stretch k c0 h0
    exact ⟨a, l, h, rfl⟩

theorem iterate_kb {d : RopeDef F} {dt : F} : ∀ (n : Nat) (r r' : Rope F), ConsInv d r → masses r.vertices = masses (start d) →
    iterate dt n r = some r' →
    Kb (Level d r.tuning) r.vertices r'.vertices ∧ ConsInv d r' ∧ r'.tuning = r.tuning ∧ r'.gravity = r.gravity := by
  intro n
  induction n with
  | zero => intro r r' ci _ e; cases e; exact ⟨Kb.refl _ _, ci, rfl, rfl⟩
  | succ n ih =>
    intro r r' ci hm e
    simp only [iterate, Option.bind_eq_bind, Option.bind_eq_some_iff] at e
    obtain ⟨r1, e1, r2, e2, e⟩ := e
    obtain ⟨k1, ci1, t1, g1⟩ := solveBends_kb ci hm e1
    obtain ⟨k2, ci2, t2, g2⟩ := solveStretches_kb (bal := Level d r.tuning) ci1 (k1.masses.trans hm) e2
    obtain ⟨k3, ci3, t3, g3⟩ := ih _ _ ci2 ((k2.masses.trans k1.masses).trans hm) e
    rw [t2, t1] at k3
    exact ⟨(k1.trans k2).trans k3, ci3, t3.trans (t2.trans t1), g3.trans (g2.trans g1)⟩

theorem forall₂_comp {α β γ : Type} {A : α → β → Prop} {B : β → γ → Prop} {C : α → γ → Prop} (h : ∀ x y z, A x y → B y z → C x z) :
    ∀ {a : List α} {b : List β} {c : List γ}, List.Forall₂ A a b → List.Forall₂ B b c → List.Forall₂ C a c := by
  intro a b c hab
  induction hab generalizing c with
  | nil => intro hbc; cases hbc; exact .nil
  | cons x _ ih =>
    intro hbc
    cases hbc with
    | cons y z => exact .cons (h _ _ _ x y) (ih z)

theorem forall₂_map {α β γ : Type} {A : α → β → Prop} {C : α → γ → Prop} {f : β → γ} (h : ∀ x y, A x y → C x (f y))
    {a : List α} {b : List β} (hab : List.Forall₂ A a b) : List.Forall₂ C a (b.map f) := by
  induction hab with
  | nil => exact .nil
  | cons x _ ih => exact .cons (h _ _ x) ih

theorem tuneBend_again (t t' : RopeTuning F) (c : RopeBend F) (l : F) :
    tuneBend t' { tuneBend t c with lambda := l } = { tuneBend t' c with lambda := l } := by
  obtain ⟨a, b, e⟩ := tuneBend_same t c
  rw [e]
  simp only [tuneBend]
  split_ifs <;> rfl

theorem tuneStretch_again (t t' : RopeTuning F) (c : RopeStretch F) (l : F) :
    tuneStretch t' { tuneStretch t c with lambda := l } = { tuneStretch t' c with lambda := l } := by
  by_cases h : c.invMass1 + c.invMass2 = 0
  · simp only [tuneStretch, h, if_true]
  · simp only [tuneStretch, h, if_false]

theorem ConsInv.lambdas {d : RopeDef F} {r r' : Rope F} (ci : ConsInv d r) (hb : r'.bends = r.bends.map fun c => { c with lambda := 0 })
    (hs : r'.stretches = r.stretches.map fun c => { c with lambda := 0 }) (ht : r'.tuning = r.tuning) : ConsInv d r' := by
  refine ⟨by rw [hb, List.length_map]; exact ci.nb, by rw [hs, List.length_map]; exact ci.ns, fun k c h => ?_, fun k c h => ?_⟩
  · rw [hb, List.getElem?_map, Option.map_eq_some_iff] at h
    obtain ⟨c1, h, rfl⟩ := h
    obtain ⟨a, b, l, g, rfl⟩ := ci.bend _ _ h
    exact ⟨a, b, 0, g, by rw [ht]⟩
  · rw [hs, List.getElem?_map, Option.map_eq_some_iff] at h
    obtain ⟨c1, h, rfl⟩ := h
    obtain ⟨a, l, g, rfl⟩ := ci.stretch _ _ h
    exact ⟨a, 0, g, by rw [ht]⟩

theorem ConsInv.setTuning {d : RopeDef F} {r : Rope F} (ci : ConsInv d r) (t : RopeTuning F) : ConsInv d (r.setTuning t) := by
  refine ⟨by simp only [Rope.setTuning, List.length_map]; exact ci.nb, by simp only [Rope.setTuning, List.length_map]; exact ci.ns,
    fun k c h => ?_, fun k c h => ?_⟩
  · simp only [Rope.setTuning, List.getElem?_map, Option.map_eq_some_iff] at h
    obtain ⟨c1, h, rfl⟩ := h
    obtain ⟨a, b, l, g, rfl⟩ := ci.bend _ _ h
    exact ⟨a, b, l, g, tuneBend_again _ _ _ _⟩
  · simp only [Rope.setTuning, List.getElem?_map, Option.map_eq_some_iff] at h
    obtain ⟨c1, h, rfl⟩ := h
    obtain ⟨a, l, g, rfl⟩ := ci.stretch _ _ h
    exact ⟨a, l, g, tuneStretch_again _ _ _ _⟩

theorem mapM_forall₂ {α β : Type} {f : α → Option β} : ∀ (a : List α) (l : List β), a.mapM f = some l → List.Forall₂ (fun x y => f x = some y) a l := by
  intro a
  induction a with
  | nil => intro l h; simp at h; subst h; exact .nil
  | cons x a ih =>
    intro l h
    simp only [List.mapM_cons, Option.bind_eq_bind, Option.bind_eq_some_iff] at h
    obtain ⟨y, hy, ys, hys, h⟩ := h
    cases h
    exact .cons hy (ih _ hys)

theorem mapM_get {α : Type} {f : Nat → Option α} {n : Nat} {l : List α} (h : (List.range n).mapM f = some l) :
    l.length = n ∧ ∀ k c, l[k]? = some c → f k = some c := by
  replace h := mapM_forall₂ _ _ h
  have hl := h.length_eq
  rw [List.length_range] at hl
  refine ⟨hl.symm, fun k c hc => ?_⟩
  obtain ⟨hk, rfl⟩ := List.getElem?_eq_some_iff.mp hc
  have := (List.forall₂_iff_get.mp h).2 k (by rw [List.length_range]; omega) hk
  simpa using this

theorem create_inv {d : RopeDef F} {r0 r : Rope F} (e : r0.create d = some r) : Inv d r := by
  unfold create at e
  split_ifs at e with hn
  simp only [Option.bind_eq_bind, Option.bind_eq_some_iff] at e
  obtain ⟨ss, es, bs, eb, e⟩ := e
  cases e
  obtain ⟨ls, gs⟩ := mapM_get es
  obtain ⟨lb, gb⟩ := mapM_get eb
  rw [List.length_map] at ls lb
  refine ⟨?_, ?_, rfl⟩
  · refine ⟨by simp only [setTuning, List.length_map]; exact lb, by simp only [setTuning, List.length_map]; exact ls, fun k c h => ?_, fun k c h => ?_⟩
    · simp only [setTuning, List.getElem?_map, Option.map_eq_some_iff] at h
      obtain ⟨c1, h, rfl⟩ := h
      have hb := gb _ _ h
      refine ⟨_, c1, c1.lambda, hb, ?_⟩
      obtain ⟨a, b, e⟩ := tuneBend_same d.tuning c1
      show tuneBend d.tuning c1 = { tuneBend d.tuning c1 with lambda := c1.lambda }
      rw [e]
    · simp only [setTuning, List.getElem?_map, Option.map_eq_some_iff] at h
      obtain ⟨c1, h, rfl⟩ := h
      have hb := gs _ _ h
      refine ⟨c1, c1.lambda, hb, ?_⟩
      obtain ⟨a, b, e⟩ := tuneStretch_same d.tuning c1
      show tuneStretch d.tuning c1 = { tuneStretch d.tuning c1 with lambda := c1.lambda }
      rw [e]
  · show List.Forall₂ _ d.vertices (d.vertices.map (createVertex d.position))
    exact forall₂_map (A := fun x y => x = y) (fun x y h => by subst h; exact ⟨⟨rfl, rfl⟩, rfl⟩) (List.forall₂_same.mpr fun _ _ => rfl)

theorem reset_inv {d : RopeDef F} {r : Rope F} (i : Inv d r) (pos : Vec2 F) : Inv d (r.reset pos) :=
  ⟨i.cons.lambdas rfl rfl rfl, forall₂_map (fun _ _ h => ⟨⟨h.1.bind, h.1.invMass⟩, rfl⟩) i.vert, i.gravity⟩

theorem Inv.masses {d : RopeDef F} {r : Rope F} (i : Inv d r) : Rope.masses r.vertices = Rope.masses (start d) :=
  masses_start d (i.vert.imp fun _ _ h => h.1)

theorem applyBendForces_kv {d : RopeDef F} {dt : F} {r r' : Rope F} (ci : ConsInv d r) (hm : masses r.vertices = masses (start d))
    (e : applyBendForces dt r = some r') :
    KickV r.vertices r'.vertices ⟨0, 0⟩ ∧ ∃ vs, r' = { r with vertices := vs } := by
  unfold applyBendForces at e
  split_ifs at e
  · simp only [Option.bind_eq_bind, Option.bind_eq_some_iff] at e
    obtain ⟨vs, e, e'⟩ := e
    cases e'
    refine ⟨foldlM_kv (P := fun c => ∃ k, BendOf d r.tuning k c) ?_ _ _ _ hm ?_ e, vs, rfl⟩
    · rintro vs c vs' hm ⟨k, hc⟩ e
      exact bendForce_kick (by rw [hm]; exact hc.ok) e
    · intro c hc
      obtain ⟨k, hk⟩ := mem_get hc; exact ⟨k, ci.bend k c hk⟩
  · cases e; exact ⟨KickV.refl _, _, rfl⟩

/-- The stages of a step. -/
theorem step_stages {d : RopeDef F} {r r' : Rope F} (i : Inv d r) {dt : F} (h0 : dt ≠ 0) {n : Nat} {pos : Vec2 F} (e : r.step dt n pos = some r') :
    ∃ v1 v2 v3, v1 = r.vertices.map (accelerate dt (RopeElem.exp (-dt * r.tuning.damping)) r.gravity pos) ∧ KickV v1 v2 ⟨0, 0⟩ ∧
      Kb (Level d r.tuning) (v2.map fun x => { x with p := x.p + dt * x.v }) v3 ∧
      r'.vertices = v3.map (fun x => { x with v := (1 / dt) * (x.p - x.p0), p0 := x.p }) ∧ ConsInv d r' ∧ r'.tuning = r.tuning ∧
      r'.gravity = r.gravity := by
  simp only [step, h0, if_false, Option.bind_eq_bind, Option.bind_eq_some_iff] at e
  obtain ⟨r1, e1, r2, e2, e⟩ := e
  have hm1 : Rope.masses (r.vertices.map (accelerate dt (RopeElem.exp (-dt * r.tuning.damping)) r.gravity pos)) = Rope.masses r.vertices := by
    simp only [Rope.masses, List.map_map]
    refine List.map_congr_left fun x _ => ?_
    simp only [Function.comp, accelerate]; split_ifs <;> rfl
  obtain ⟨k1, vs, rfl⟩ := applyBendForces_kv (d := d)
    (r := { r with vertices := r.vertices.map (accelerate dt (RopeElem.exp (-dt * r.tuning.damping)) r.gravity pos) })
    ⟨i.cons.nb, i.cons.ns, i.cons.bend, i.cons.stretch⟩ (hm1.trans i.masses) e1
  have ci2 := ConsInv.lambdas (r' := { r with
      vertices := vs.map fun x => { x with p := x.p + dt * x.v }
      bends := r.bends.map fun c => { c with lambda := 0 }
      stretches := r.stretches.map fun c => { c with lambda := 0 } }) i.cons rfl rfl rfl
  have hm2 : Rope.masses (vs.map fun x => { x with p := x.p + dt * x.v }) = Rope.masses vs := by
    simp only [Rope.masses, List.map_map]
    rfl
  obtain ⟨k2, ci3, t3, g3⟩ := iterate_kb n _ _ ci2 (hm2.trans (k1.masses.trans (hm1.trans i.masses))) e2
  cases e
  exact ⟨_, vs, r2.vertices, rfl, k1, k2, rfl, ⟨ci3.nb, ci3.ns, ci3.bend, ci3.stretch⟩, t3, g3⟩

theorem step_inv {d : RopeDef F} {r r' : Rope F} (i : Inv d r) {dt : F} {n : Nat} {pos : Vec2 F} (e : r.step dt n pos = some r') : Inv d r' := by
  by_cases h0 : dt = 0
  · simp only [step, h0, if_true] at e; cases e; exact i
  obtain ⟨v1, v2, v3, rfl, k1, ⟨g, k2, _⟩, e4, ci, ht, hg⟩ := step_stages i h0 e
  refine ⟨ci, ?_, hg.trans i.gravity⟩
  rw [e4]
  have a1 := forall₂_map (C := VertOf) (f := accelerate dt (RopeElem.exp (-dt * r.tuning.damping)) r.gravity pos) (fun x y h =>
    (by simp only [accelerate]; split_ifs <;> exact ⟨h.1.bind, h.1.invMass⟩)) i.vert
  have a2 := forall₂_comp (C := VertOf) (fun x y z h k => ⟨k.bind.trans h.bind, k.invMass.trans h.invMass⟩) a1 k1.still
  have a3 := forall₂_map (C := VertOf) (f := fun x => { x with p := x.p + dt * x.v }) (fun x y h => ⟨h.bind, h.invMass⟩) a2
  have a4 := forall₂_comp (C := VertOf) (fun x y z h k => ⟨k.bind.trans h.bind, k.invMass.trans h.invMass⟩) a3 k2.still
  exact forall₂_map (fun x y h => ⟨⟨h.bind, h.invMass⟩, rfl⟩) a4

theorem run_inv {d : RopeDef F} {r : Rope F} (h : RopeRun d r) : Inv d r := by
  induction h with
  | create r0 r e => exact create_inv e
  | setTuning r t _ ih => exact ⟨ih.cons.setTuning t, ih.vert, ih.gravity⟩
  | reset r pos _ ih => exact reset_inv ih pos
  | step r r' dt n pos _ e ih => exact step_inv ih e

theorem smul_cancel {dt : F} (h0 : dt ≠ 0) (a : Vec2 F) : dt * ((1 / dt) * a) = a := by
  ext <;> simp only [Vec2.smul_x, Vec2.smul_y] <;> field_simp

/-- A fixed vertex is where it is put. -/
theorem step_pinned {d : RopeDef F} {r r' : Rope F} (i : Inv d r) {dt : F} (h0 : dt ≠ 0) {n : Nat} {pos : Vec2 F} (e : r.step dt n pos = some r') :
    List.Forall₂ (fun x y => x.mass ≤ 0 → y.p = x.position + pos) d.vertices r'.vertices := by
  obtain ⟨v1, v2, v3, rfl, k1, ⟨g, k2, _⟩, e4, -, -, -⟩ := step_stages i h0 e
  rw [e4]
  have a1 := forall₂_map (C := fun x y => x.mass ≤ 0 → y.invMass = 0 ∧ y.p + dt * y.v = x.position + pos)
    (f := accelerate dt (RopeElem.exp (-dt * r.tuning.damping)) r.gravity pos) (fun x y h hx =>
    (by
      have hm : y.invMass = 0 := by rw [h.1.invMass, if_neg (not_lt.mpr hx)]
      simp only [accelerate, hm, lt_irrefl, if_false]
      refine ⟨trivial, ?_⟩
      rw [smul_cancel h0, h.2, h.1.bind]
      ext <;> simp only [Vec2.add_x, Vec2.add_y, Vec2.sub_x, Vec2.sub_y] <;> ring)) i.vert
  have a2 := forall₂_comp (C := fun x y => x.mass ≤ 0 → y.invMass = 0 ∧ y.p + dt * y.v = x.position + pos) (fun x y z h k hx => by
    obtain ⟨a, b⟩ := h hx
    exact ⟨k.invMass.trans a, by rw [k.p, k.pin a]; exact b⟩) a1 k1.still
  have a3 := forall₂_map (C := fun x y => x.mass ≤ 0 → y.invMass = 0 ∧ y.p = x.position + pos) (f := fun x => { x with p := x.p + dt * x.v })
    (fun x y h hx => h hx) a2
  have a4 := forall₂_comp (C := fun x y => x.mass ≤ 0 → y.p = x.position + pos) (fun x y z h k hx => by
    obtain ⟨a, b⟩ := h hx
    exact (k.pin a).trans b) a3 k2.still
  exact forall₂_map (fun x y h hx => h hx) a4

/-! ### Sums -/

theorem massSum_wsum {ds : List (RopeDefVertex F)} {vs : List (RopeVertex F)} (h : List.Forall₂ VertOf ds vs) (hm : ∀ x ∈ ds, 0 < x.mass)
    (f : RopeVertex F → F) : ((ds.zip vs).map fun x => x.1.mass * f x.2).sum = wsum f vs := by
  induction h with
  | nil => rfl
  | cons a _ ih =>
    have := hm _ (List.mem_cons_self)
    simp only [List.zip_cons_cons, List.map_cons, List.sum_cons, wsum]
    rw [ih fun x hx => hm x (by simp [hx]), a.invMass, if_pos this]
    simp only [wsum, one_div, div_inv_eq_mul]; rw [mul_comm]

theorem free_of {ds : List (RopeDefVertex F)} {vs : List (RopeVertex F)} (h : List.Forall₂ VertOf ds vs) (hm : ∀ x ∈ ds, 0 < x.mass) :
    ∀ x ∈ vs, 0 < x.invMass := by
  induction h with
  | nil => simp
  | cons a _ ih =>
    intro x hx
    rcases List.mem_cons.mp hx with rfl | hx
    · have := hm _ (List.mem_cons_self)
      rw [a.invMass, if_pos this]; exact one_div_pos.mpr this
    · exact ih (fun x hx => hm x (by simp [hx])) x hx

theorem wsum_map {f g : RopeVertex F → F} {h : RopeVertex F → RopeVertex F} {a b : F} {k : RopeVertex F → F} {vs : List (RopeVertex F)}
    (hm : ∀ x ∈ vs, (h x).invMass = x.invMass) (hf : ∀ x ∈ vs, f (h x) = a * g x + b * k x) :
    wsum f (vs.map h) = a * wsum g vs + b * wsum k vs := by
  induction vs with
  | nil => simp [wsum]
  | cons x vs ih =>
    have := ih (fun y hy => hm y (by simp [hy])) (fun y hy => hf y (by simp [hy]))
    simp only [wsum, List.map_cons, List.sum_cons] at this ⊢
    rw [this, hm x (by simp), hf x (by simp)]; ring

theorem wsum_masses {vs vs' : List (RopeVertex F)} (c : F) (h : masses vs' = masses vs) : wsum (fun _ => c) vs' = wsum (fun _ => c) vs := by
  have : ∀ vs : List (RopeVertex F), wsum (fun _ => c) vs = ((masses vs).map fun m => c / m).sum := by
    intro vs; simp only [wsum, masses, List.map_map]; rfl
  rw [this, this, h]

theorem wsum_p0 {ds : List (RopeDefVertex F)} {vs : List (RopeVertex F)} (h : List.Forall₂ (fun x y => VertOf x y ∧ y.p0 = y.p) ds vs) :
    wsum (·.p0.x) vs = wsum (·.p.x) vs ∧ wsum (·.p0.y) vs = wsum (·.p.y) vs := by
  induction h with
  | nil => exact ⟨rfl, rfl⟩
  | cons a _ ih => simp only [wsum, List.map_cons, List.sum_cons, a.2] at ih ⊢; rw [ih.1, ih.2]; exact ⟨rfl, rfl⟩

theorem wsum_forall₂ {f : RopeVertex F → F} {R : RopeVertex F → RopeVertex F → Prop} (hR : ∀ x y, R x y → y.invMass = x.invMass ∧ f y = f x)
    {a b : List (RopeVertex F)} (h : List.Forall₂ R a b) : wsum f b = wsum f a := by
  induction h with
  | nil => rfl
  | cons x _ ih => simp only [wsum, List.map_cons, List.sum_cons] at ih ⊢; rw [ih, (hR _ _ x).1, (hR _ _ x).2]

theorem step_momentum {d : RopeDef F} {r r' : Rope F} (i : Inv d r) {dt : F} (h0 : dt ≠ 0) {n : Nat} {pos : Vec2 F} (e : r.step dt n pos = some r')
    (hm : ∀ x ∈ d.vertices, 0 < x.mass) (lv : Level d r.tuning) (c : Vec2 F → F) (hc : c = Vec2.x ∨ c = Vec2.y) :
    wsum (fun x => c x.v) r'.vertices = RopeElem.exp (-dt * r.tuning.damping) * wsum (fun x => c x.v) r.vertices
        + dt * (c d.gravity * wsum (fun _ => 1) r.vertices) ∧
      wsum (fun x => c x.p) r'.vertices = wsum (fun x => c x.p) r.vertices + dt * wsum (fun x => c x.v) r'.vertices := by
  obtain ⟨v1, v2, v3, e1, k1, ⟨g, k2, hg⟩, e4, -, -, -⟩ := step_stages i h0 e
  obtain rfl := hg lv
  have hpos := free_of (i.vert.imp fun _ _ h => h.1) hm
  have add : ∀ a b : Vec2 F, c (a + b) = c a + c b := by rcases hc with rfl | rfl <;> intro a b <;> rfl
  have sub : ∀ a b : Vec2 F, c (a - b) = c a - c b := by rcases hc with rfl | rfl <;> intro a b <;> rfl
  have smul : ∀ (k : F) (b : Vec2 F), c (k * b) = k * c b := by rcases hc with rfl | rfl <;> intro a b <;> rfl
  set D := RopeElem.exp (-dt * r.tuning.damping)
  have acc : ∀ x ∈ r.vertices, accelerate dt D r.gravity pos x = { x with v := D * x.v + dt * r.gravity } := fun x hx => by
    simp only [accelerate, hpos x hx, if_true]
  have f1 : Free v1 := by
    intro y hy
    rw [e1, List.mem_map] at hy
    obtain ⟨x, hx, rfl⟩ := hy
    rw [acc x hx]; exact (hpos x hx).ne'
  have f2 : Free v2 := forall₂_free (fun _ _ h => h.invMass) k1.still f1
  have f2' : Free (v2.map fun x => { x with p := x.p + dt * x.v }) := by
    intro y hy
    rw [List.mem_map] at hy
    obtain ⟨x, hx, rfl⟩ := hy
    exact f2 x hx
  have V1 : wsum (fun x => c x.v) v1 = D * wsum (fun x => c x.v) r.vertices + dt * wsum (fun _ => c r.gravity) r.vertices := by
    rw [e1]; exact wsum_map (fun x hx => by rw [acc x hx]) (fun x hx => by rw [acc x hx, add, smul, smul])
  have P1 : wsum (fun x => c x.p) v1 = 1 * wsum (fun x => c x.p) r.vertices + 0 * wsum (fun _ => 0) r.vertices := by
    rw [e1]; exact wsum_map (fun x hx => by rw [acc x hx]) (fun x hx => by rw [acc x hx]; ring)
  have Q1 : wsum (fun x => c x.p0) v1 = 1 * wsum (fun x => c x.p0) r.vertices + 0 * wsum (fun _ => 0) r.vertices := by
    rw [e1]; exact wsum_map (fun x hx => by rw [acc x hx]) (fun x hx => by rw [acc x hx]; ring)
  have V2 : wsum (fun x => c x.v) v2 = wsum (fun x => c x.v) v1 := by
    rcases hc with rfl | rfl
    · simpa using k1.sumx f1
    · simpa using k1.sumy f1
  have P2 : wsum (fun x => c x.p) v2 = wsum (fun x => c x.p) v1 := wsum_forall₂ (fun x y h => ⟨h.invMass, by rw [h.p]⟩) k1.still
  have Q2 : wsum (fun x => c x.p0) v2 = wsum (fun x => c x.p0) v1 := wsum_forall₂ (fun x y h => ⟨h.invMass, by rw [h.p0]⟩) k1.still
  have P3 : wsum (fun x => c x.p) v3 = wsum (fun x => c x.p) (v2.map fun x => { x with p := x.p + dt * x.v }) := by
    rcases hc with rfl | rfl
    · simpa using k2.sumx f2'
    · simpa using k2.sumy f2'
  have P3' : wsum (fun x => c x.p) (v2.map fun x => { x with p := x.p + dt * x.v }) = 1 * wsum (fun x => c x.p) v2 + dt * wsum (fun x => c x.v) v2 :=
    wsum_map (fun _ _ => rfl) (fun x _ => by rw [add, smul]; ring)
  have Q3 : wsum (fun x => c x.p0) v3 = wsum (fun x => c x.p0) (v2.map fun x => { x with p := x.p + dt * x.v }) :=
    wsum_forall₂ (fun x y h => ⟨h.invMass, by rw [h.p0]⟩) k2.still
  have Q3' : wsum (fun x => c x.p0) (v2.map fun x => { x with p := x.p + dt * x.v }) = 1 * wsum (fun x => c x.p0) v2 + 0 * wsum (fun _ => 0) v2 :=
    wsum_map (fun _ _ => rfl) (fun x _ => by ring)
  have V4 : wsum (fun x => c x.v) r'.vertices = 1 / dt * wsum (fun x => c x.p) v3 + -(1 / dt) * wsum (fun x => c x.p0) v3 := by
    rw [e4]; exact wsum_map (fun _ _ => rfl) (fun x _ => by rw [smul, sub]; ring)
  have P4 : wsum (fun x => c x.p) r'.vertices = 1 * wsum (fun x => c x.p) v3 + 0 * wsum (fun _ => 0) v3 := by
    rw [e4]; exact wsum_map (fun _ _ => rfl) (fun x _ => by ring)
  have W : wsum (fun x => c x.p0) r.vertices = wsum (fun x => c x.p) r.vertices := by
    have := wsum_p0 i.vert
    rcases hc with rfl | rfl
    · exact this.1
    · exact this.2
  have C : wsum (fun _ => c r.gravity) r.vertices = c d.gravity * wsum (fun _ => 1) r.vertices := by
    rw [i.gravity]
    have := wsum_map (f := fun _ => c d.gravity) (g := fun _ => 1) (k := fun _ => 0) (h := id) (a := c d.gravity) (b := 0) (vs := r.vertices) (fun _ _ => rfl)
      (fun _ _ => by ring)
    rw [List.map_id] at this
    rw [this]; ring
  have e5 : wsum (fun x => c x.v) r'.vertices = wsum (fun x => c x.v) v2 := by
    rw [V4, P3, P3', Q3, Q3', P2, P1, Q2, Q1, W]; field_simp; ring
  refine ⟨by rw [e5, V2, V1, C], ?_⟩
  rw [e5, P4, P3, P3', P2, P1]; ring

end Rope
end
end B2
