import Verif.Spec.JointDef
import Verif.Proofs.Distance
import Mathlib.Tactic.Ring
import Mathlib.Tactic.Linarith
import Mathlib.Tactic.FieldSimp

/-!
# Saving and loading a joint: proofs
-/
set_option linter.unusedSectionVars false

namespace B2

section
variable {F : Type} [Field F] [LinearOrder F]

/-! ## Reading what was written -/

theorem JointDef.readSeq_write (d : JointDef F) : JointDef.readSeq (d.write.2.fields.map (·.2)) d.write.1 = some d := by
  cases d <;> rfl

theorem JointDef.readMap_write (d : JointDef F) : JointDef.readMap d.write.2.fields d.write.1 = some d := by
  cases d <;> rfl

theorem foldlM_perm {α β : Type} {f : β → α → Option β} {l l' : List α} (p : l.Perm l') :
    (∀ x ∈ l, ∀ y ∈ l, ∀ d, (f d x).bind (f · y) = (f d y).bind (f · x)) → ∀ d, l.foldlM f d = l'.foldlM f d := by
  induction p with
  | nil => intro _ _; rfl
  | cons x _ ih =>
    intro h d
    simp only [List.foldlM_cons, Option.bind_eq_bind]
    congr 1
    funext d'
    exact ih (fun x hx y hy => h x (List.mem_cons_of_mem _ hx) y (List.mem_cons_of_mem _ hy)) d'
  | swap x y l =>
    intro h d
    simp only [List.foldlM_cons, Option.bind_eq_bind]
    rw [← Option.bind_assoc, ← Option.bind_assoc, h y (by simp) x (by simp)]
  | trans p _ ih ih' =>
    intro h d
    rw [ih h, ih' fun x hx y hy => h x (p.mem_iff.mpr hx) y (p.mem_iff.mpr hy)]

theorem RevoluteDef.comm (d : RevoluteDef F) : ∀ x ∈ d.write.fields, ∀ y ∈ d.write.fields, ∀ e : RevoluteDef F,
    (e.readField x).bind (·.readField y) = (e.readField y).bind (·.readField x) := by
  intro x hx y hy e
  simp only [RevoluteDef.write, List.mem_cons, List.not_mem_nil, or_false] at hx hy
  repeat' (first | (rcases hx with rfl | hx) | subst hx)
  all_goals repeat' (first | (rcases hy with rfl | hy) | subst hy)
  all_goals rfl

theorem PrismaticDef.comm (d : PrismaticDef F) : ∀ x ∈ d.write.fields, ∀ y ∈ d.write.fields, ∀ e : PrismaticDef F,
    (e.readField x).bind (·.readField y) = (e.readField y).bind (·.readField x) := by
  intro x hx y hy e
  simp only [PrismaticDef.write, List.mem_cons, List.not_mem_nil, or_false] at hx hy
  repeat' (first | (rcases hx with rfl | hx) | subst hx)
  all_goals repeat' (first | (rcases hy with rfl | hy) | subst hy)
  all_goals rfl

theorem DistanceDef.comm (d : DistanceDef F) : ∀ x ∈ d.write.fields, ∀ y ∈ d.write.fields, ∀ e : DistanceDef F,
    (e.readField x).bind (·.readField y) = (e.readField y).bind (·.readField x) := by
  intro x hx y hy e
  simp only [DistanceDef.write, List.mem_cons, List.not_mem_nil, or_false] at hx hy
  repeat' (first | (rcases hx with rfl | hx) | subst hx)
  all_goals repeat' (first | (rcases hy with rfl | hy) | subst hy)
  all_goals rfl

theorem WeldDef.comm (d : WeldDef F) : ∀ x ∈ d.write.fields, ∀ y ∈ d.write.fields, ∀ e : WeldDef F,
    (e.readField x).bind (·.readField y) = (e.readField y).bind (·.readField x) := by
  intro x hx y hy e
  simp only [WeldDef.write, List.mem_cons, List.not_mem_nil, or_false] at hx hy
  repeat' (first | (rcases hx with rfl | hx) | subst hx)
  all_goals repeat' (first | (rcases hy with rfl | hy) | subst hy)
  all_goals rfl

theorem WheelDef.comm (d : WheelDef F) : ∀ x ∈ d.write.fields, ∀ y ∈ d.write.fields, ∀ e : WheelDef F,
    (e.readField x).bind (·.readField y) = (e.readField y).bind (·.readField x) := by
  intro x hx y hy e
  simp only [WheelDef.write, List.mem_cons, List.not_mem_nil, or_false] at hx hy
  repeat' (first | (rcases hx with rfl | hx) | subst hx)
  all_goals repeat' (first | (rcases hy with rfl | hy) | subst hy)
  all_goals rfl

theorem FrictionDef.comm (d : FrictionDef F) : ∀ x ∈ d.write.fields, ∀ y ∈ d.write.fields, ∀ e : FrictionDef F,
    (e.readField x).bind (·.readField y) = (e.readField y).bind (·.readField x) := by
  intro x hx y hy e
  simp only [FrictionDef.write, List.mem_cons, List.not_mem_nil, or_false] at hx hy
  repeat' (first | (rcases hx with rfl | hx) | subst hx)
  all_goals repeat' (first | (rcases hy with rfl | hy) | subst hy)
  all_goals rfl

theorem MotorDef.comm (d : MotorDef F) : ∀ x ∈ d.write.fields, ∀ y ∈ d.write.fields, ∀ e : MotorDef F,
    (e.readField x).bind (·.readField y) = (e.readField y).bind (·.readField x) := by
  intro x hx y hy e
  simp only [MotorDef.write, List.mem_cons, List.not_mem_nil, or_false] at hx hy
  repeat' (first | (rcases hx with rfl | hx) | subst hx)
  all_goals repeat' (first | (rcases hy with rfl | hy) | subst hy)
  all_goals rfl

theorem PulleyDef.comm (d : PulleyDef F) : ∀ x ∈ d.write.fields, ∀ y ∈ d.write.fields, ∀ e : PulleyDef F,
    (e.readField x).bind (·.readField y) = (e.readField y).bind (·.readField x) := by
  intro x hx y hy e
  simp only [PulleyDef.write, List.mem_cons, List.not_mem_nil, or_false] at hx hy
  repeat' (first | (rcases hx with rfl | hx) | subst hx)
  all_goals repeat' (first | (rcases hy with rfl | hy) | subst hy)
  all_goals rfl

theorem JointDef.readMap_perm (d : JointDef F) {es : List (String × Val F)} (h : d.write.2.fields.Perm es) :
    JointDef.readMap es d.write.1 = some d := by
  rw [← JointDef.readMap_write]
  cases d <;> simp only [JointDef.readMap, JointDef.write] at h ⊢ <;> congr 1 <;> symm
  · exact foldlM_perm h (RevoluteDef.comm _) _
  · exact foldlM_perm h (PrismaticDef.comm _) _
  · exact foldlM_perm h (DistanceDef.comm _) _
  · exact foldlM_perm h (WeldDef.comm _) _
  · exact foldlM_perm h (WheelDef.comm _) _
  · exact foldlM_perm h (FrictionDef.comm _) _
  · exact foldlM_perm h (MotorDef.comm _) _
  · exact foldlM_perm h (PulleyDef.comm _) _

/-! ## What every joint of a program has -/

/-- What the constructors make sure of. -/
def Joint.Sound [Elem F] : Joint F → Prop
  | .prismatic j => j.lowerTranslation ≤ j.upperTranslation ∧ j.localXAxisA.normalize.1 = j.localXAxisA ∧ j.localYAxisA = crossSV 1 j.localXAxisA
  | .wheel j => j.localYAxisA = crossSV 1 j.localXAxisA
  | .distance j => linearSlop ≤ j.length ∧ linearSlop ≤ j.minLength ∧ j.minLength ≤ j.maxLength
  | .pulley j => j.ratio ≠ 0 ∧ j.constant = j.lengthA + j.ratio * j.lengthB
  | .mouse _ | .gear _ => False
  | _ => True

theorem onTwo_made {α : Type} {mk : α → Joint F} {vel : Arr (Vel F)} {a b : Nat} {f : Two F → α × Two F} {j' : Joint F} {vel' : Arr (Vel F)}
    (h : onTwo mk vel a b f = some (j', vel')) : ∃ s, j' = mk (f s).1 := by
  unfold onTwo at h
  simp only [Option.bind_eq_bind, Option.bind_eq_some_iff] at h
  obtain ⟨s, _, v, _, e⟩ := h
  exact ⟨s, (congrArg Prod.fst (Option.some.inj e)).symm⟩

theorem Prismatic.initVel_keeps [Elem F] (st : JStep F) (bodies : Nat → JBody F) (j : Prismatic F) (p : TwoP F) (s : Two F) :
    (j.initVel st bodies p s).1.getDef = j.getDef ∧ (j.initVel st bodies p s).1.localYAxisA = j.localYAxisA := by
  unfold Prismatic.initVel Prismatic.warm
  split <;> exact ⟨rfl, rfl⟩
theorem Prismatic.solveVel_keeps (st : JStep F) (j : Prismatic F) (s : Two F) :
    (j.solveVel st s).1.getDef = j.getDef ∧ (j.solveVel st s).1.localYAxisA = j.localYAxisA := by
  have m : ∀ (j : Prismatic F) s, (j.motor st s).1.getDef = j.getDef ∧ (j.motor st s).1.localYAxisA = j.localYAxisA := fun _ _ => ⟨rfl, rfl⟩
  have l : ∀ (j : Prismatic F) s, (j.lower st s).1.getDef = j.getDef ∧ (j.lower st s).1.localYAxisA = j.localYAxisA := fun _ _ => ⟨rfl, rfl⟩
  have u : ∀ (j : Prismatic F) s, (j.upper st s).1.getDef = j.getDef ∧ (j.upper st s).1.localYAxisA = j.localYAxisA := fun _ _ => ⟨rfl, rfl⟩
  have b : ∀ (j : Prismatic F) s, (j.block s).1.getDef = j.getDef ∧ (j.block s).1.localYAxisA = j.localYAxisA := fun _ _ => ⟨rfl, rfl⟩
  unfold Prismatic.solveVel
  dsimp only
  rw [(b _ _).1, (b _ _).2]
  split <;> split <;> simp only [(u _ _).1, (u _ _).2, (l _ _).1, (l _ _).2, (m _ _).1, (m _ _).2, and_self]
theorem Wheel.initVel_keeps [Elem F] (st : JStep F) (bodies : Nat → JBody F) (j : Wheel F) (p : TwoP F) (s : Two F) :
    (j.initVel st bodies p s).1.getDef = j.getDef ∧ (j.initVel st bodies p s).1.localYAxisA = j.localYAxisA := by
  unfold Wheel.initVel Wheel.warm
  split <;> exact ⟨rfl, rfl⟩
theorem Wheel.solveVel_keeps (st : JStep F) (j : Wheel F) (s : Two F) :
    (j.solveVel st s).1.getDef = j.getDef ∧ (j.solveVel st s).1.localYAxisA = j.localYAxisA := by
  have m : ∀ (j : Wheel F) s, (j.motor st s).1.getDef = j.getDef ∧ (j.motor st s).1.localYAxisA = j.localYAxisA := fun _ _ => ⟨rfl, rfl⟩
  have p : ∀ (j : Wheel F) s, (j.spring s).1.getDef = j.getDef ∧ (j.spring s).1.localYAxisA = j.localYAxisA := fun _ _ => ⟨rfl, rfl⟩
  have l : ∀ (j : Wheel F) s, (j.lower st s).1.getDef = j.getDef ∧ (j.lower st s).1.localYAxisA = j.localYAxisA := fun _ _ => ⟨rfl, rfl⟩
  have u : ∀ (j : Wheel F) s, (j.upper st s).1.getDef = j.getDef ∧ (j.upper st s).1.localYAxisA = j.localYAxisA := fun _ _ => ⟨rfl, rfl⟩
  have b : ∀ (j : Wheel F) s, (j.line s).1.getDef = j.getDef ∧ (j.line s).1.localYAxisA = j.localYAxisA := fun _ _ => ⟨rfl, rfl⟩
  unfold Wheel.solveVel
  dsimp only
  rw [(b _ _).1, (b _ _).2]
  split <;> simp only [(u _ _).1, (u _ _).2, (l _ _).1, (l _ _).2, (m _ _).1, (m _ _).2, (p _ _).1, (p _ _).2, and_self]
theorem DistanceJ.initVel_keeps [Elem F] (st : JStep F) (bodies : Nat → JBody F) (j : DistanceJ F) (p : TwoP F) (s : Two F) :
    (j.initVel st bodies p s).1.getDef = j.getDef := by
  unfold DistanceJ.initVel DistanceJ.warm DistanceJ.soften
  split <;> split <;> rfl
theorem DistanceJ.solveVel_keeps (st : JStep F) (j : DistanceJ F) (s : Two F) : (j.solveVel st s).1.getDef = j.getDef := by
  unfold DistanceJ.solveVel
  split
  · by_cases h : j.stiffness > 0
    · simp only [h, if_true]; rfl
    · simp only [h, if_false]; rfl
  · rfl
theorem Pulley.initVel_keeps [Elem F] (st : JStep F) (bodies : Nat → JBody F) (j : Pulley F) (p : TwoP F) (s : Two F) :
    (j.initVel st bodies p s).1.getDef = j.getDef ∧ (j.initVel st bodies p s).1.constant = j.constant := by
  unfold Pulley.initVel Pulley.warm
  split <;> exact ⟨rfl, rfl⟩
theorem Pulley.solveVel_keeps (j : Pulley F) (s : Two F) : (j.solveVel s).1.getDef = j.getDef ∧ (j.solveVel s).1.constant = j.constant :=
  ⟨rfl, rfl⟩

theorem Prismatic.sound_of [Elem F] {j k : Prismatic F} (h : k.getDef = j.getDef ∧ k.localYAxisA = j.localYAxisA)
    (hj : (Joint.prismatic j).Sound) : (Joint.prismatic k).Sound := by
  obtain ⟨e, ey⟩ := h
  have e1 := congrArg PrismaticDef.lowerTranslation e
  have e2 := congrArg PrismaticDef.upperTranslation e
  have e3 := congrArg PrismaticDef.localAxisA e
  simp only [Prismatic.getDef] at e1 e2 e3
  unfold Joint.Sound at hj ⊢
  simp only [e1, e2, e3, ey]
  exact hj
theorem Wheel.sound_of [Elem F] {j k : Wheel F} (h : k.getDef = j.getDef ∧ k.localYAxisA = j.localYAxisA)
    (hj : (Joint.wheel j).Sound) : (Joint.wheel k).Sound := by
  obtain ⟨e, ey⟩ := h
  have e3 := congrArg WheelDef.localAxisA e
  simp only [Wheel.getDef] at e3
  unfold Joint.Sound at hj ⊢
  simp only [e3, ey]
  exact hj
theorem DistanceJ.sound_of [Elem F] {j k : DistanceJ F} (e : k.getDef = j.getDef)
    (hj : (Joint.distance j).Sound) : (Joint.distance k).Sound := by
  have e1 := congrArg DistanceDef.length e
  have e2 := congrArg DistanceDef.minLength e
  have e3 := congrArg DistanceDef.maxLength e
  simp only [DistanceJ.getDef] at e1 e2 e3
  unfold Joint.Sound at hj ⊢
  simp only [e1, e2, e3]
  exact hj
theorem Pulley.sound_of [Elem F] {j k : Pulley F} (h : k.getDef = j.getDef ∧ k.constant = j.constant)
    (hj : (Joint.pulley j).Sound) : (Joint.pulley k).Sound := by
  obtain ⟨e, ec⟩ := h
  have e1 := congrArg PulleyDef.lengthA e
  have e2 := congrArg PulleyDef.lengthB e
  have e3 := congrArg PulleyDef.ratio e
  simp only [Pulley.getDef] at e1 e2 e3
  unfold Joint.Sound at hj ⊢
  simp only [e1, e2, e3, ec]
  exact hj

theorem Joint.Sound.init [Elem F] {j j' : Joint F} {st : JStep F} {bodies : Nat → JBody F} {pos : Arr (Pos F)} {vel vel' : Arr (Vel F)}
    (hj : j.Sound) (h : j.initVel st bodies pos vel = some (j', vel')) : j'.Sound := by
  unfold Joint.initVel at h
  cases j <;> simp only [Option.bind_eq_bind, Option.bind_eq_some_iff] at h
  case mouse => exact hj.elim
  case gear => exact hj.elim
  all_goals
    obtain ⟨p, _, h⟩ := h
    obtain ⟨s, rfl⟩ := onTwo_made h
  case prismatic => exact Prismatic.sound_of (Prismatic.initVel_keeps ..) hj
  case wheel => exact Wheel.sound_of (Wheel.initVel_keeps ..) hj
  case distance => exact DistanceJ.sound_of (DistanceJ.initVel_keeps ..) hj
  case pulley => exact Pulley.sound_of (Pulley.initVel_keeps ..) hj
  all_goals trivial

theorem Joint.Sound.solve [Elem F] {j j' : Joint F} {st : JStep F} {vel vel' : Arr (Vel F)}
    (hj : j.Sound) (h : j.solveVel st vel = some (j', vel')) : j'.Sound := by
  unfold Joint.solveVel at h
  cases j <;> simp only at h
  case mouse => exact hj.elim
  case gear => exact hj.elim
  all_goals obtain ⟨s, rfl⟩ := onTwo_made h
  case prismatic => exact Prismatic.sound_of (Prismatic.solveVel_keeps ..) hj
  case wheel => exact Wheel.sound_of (Wheel.solveVel_keeps ..) hj
  case distance => exact DistanceJ.sound_of (DistanceJ.solveVel_keeps ..) hj
  case pulley => exact Pulley.sound_of (Pulley.solveVel_keeps ..) hj
  all_goals trivial

theorem Prismatic.sound_limit [Elem F] {j : Prismatic F} {f : Bool} (hj : (Joint.prismatic j).Sound) :
    (Joint.prismatic (j.setEnableLimit f).1).Sound := by
  unfold Prismatic.setEnableLimit
  split <;> exact hj
theorem Prismatic.sound_limits [Elem F] {j : Prismatic F} {l u : F} {r : Prismatic F × Bool} (hj : (Joint.prismatic j).Sound)
    (h : j.setLimits l u = some r) : (Joint.prismatic r.1).Sound := by
  unfold Prismatic.setLimits at h
  split at h
  · rename_i hl
    split at h <;> obtain rfl := Option.some.inj h
    · exact ⟨hl, hj.2⟩
    · exact hj
  · cases h
theorem Wheel.sound_limit [Elem F] {j : Wheel F} {f : Bool} (hj : (Joint.wheel j).Sound) :
    (Joint.wheel (j.setEnableLimit f).1).Sound := by
  unfold Wheel.setEnableLimit
  split <;> exact hj
theorem Wheel.sound_limits [Elem F] {j : Wheel F} {l u : F} {r : Wheel F × Bool} (hj : (Joint.wheel j).Sound)
    (h : j.setLimits l u = some r) : (Joint.wheel r.1).Sound := by
  unfold Wheel.setLimits at h
  split at h
  · split at h <;> obtain rfl := Option.some.inj h <;> exact hj
  · cases h

theorem le_b2max_l (a b : F) : a ≤ b2max a b := by unfold b2max; split <;> order
theorem le_b2max_r (a b : F) : b ≤ b2max a b := by unfold b2max; split <;> order
theorem b2max_of_le {a b : F} (h : b ≤ a) : b2max a b = a := by unfold b2max; split <;> order
theorem b2clamp_within {x a b : F} (h : a ≤ b) : a ≤ b2clamp x a b ∧ b2clamp x a b ≤ b := by
  unfold b2clamp b2max b2min
  split <;> split <;> constructor <;> order

theorem Joint.Sound.call [Elem F] {j j' : Joint F} {c : JointCall F} (hj : j.Sound) (h : j.call c = some j') : j'.Sound := by
  unfold Joint.call at h
  split at h
  all_goals first
    | obtain rfl := Option.some.inj h
    | obtain ⟨r, hr, rfl⟩ := Option.map_eq_some_iff.mp h
    | cases h
  all_goals first
    | trivial
    | exact hj
    | exact Prismatic.sound_limit hj
    | exact Prismatic.sound_limits hj hr
    | exact Wheel.sound_limit hj
    | exact Wheel.sound_limits hj hr
    | skip
  · exact ⟨le_b2max_l _ _, hj.2⟩
  · exact ⟨hj.1, b2clamp_within (hj.2.1.trans hj.2.2)⟩
  · exact ⟨hj.1, hj.2.1, le_b2max_r _ _⟩

end

section
variable {F : Type} [Field F] [LinearOrder F] [IsStrictOrderedRing F] [Elem F] [ElemLaws F]

theorem length_one {v : Vec2 F} (h : dot v v = 1) : v.length = 1 := by
  have h1 := length_sq v
  have h2 := length_nonneg v
  rw [h] at h1
  nlinarith

theorem normalize_idem (v : Vec2 F) : v.normalize.1.normalize.1 = v.normalize.1 := by
  by_cases h : v.length < epsilon
  · have e : v.normalize.1 = v := by unfold Vec2.normalize; simp only [h, if_true]
    rw [e, e]
  · have hl := length_one (normalize_spec h).1
    generalize v.normalize.1 = u at hl
    unfold Vec2.normalize
    dsimp only
    rw [hl]
    split
    · rfl
    · simp

theorem Joint.Sound.create {d : JointDef F} {j : Joint F} (h : d.create = some j) : j.Sound := by
  cases d <;> simp only [JointDef.create, Option.map_eq_some_iff] at h
  case prismatic d =>
    obtain ⟨k, hk, rfl⟩ := h
    unfold Prismatic.ofDef Prismatic.new at hk
    dsimp only at hk
    split at hk
    · rename_i hl
      obtain rfl := Option.some.inj hk
      exact ⟨hl, normalize_idem _, rfl⟩
    · cases hk
  case pulley d =>
    obtain ⟨k, hk, rfl⟩ := h
    unfold Pulley.ofDef Pulley.new at hk
    split at hk
    · rename_i hl
      obtain rfl := Option.some.inj hk
      exact ⟨hl, rfl⟩
    · cases hk
  all_goals obtain rfl := Option.some.inj h
  case distance => exact ⟨le_b2max_r _ _, le_b2max_r _ _, le_b2max_r _ _⟩
  case wheel => exact rfl
  all_goals trivial

theorem Joint.Made.sound {j : Joint F} (h : j.Made) : j.Sound := by
  induction h with
  | create h => exact .create h
  | call _ h ih => exact ih.call h
  | init _ h ih => exact ih.init h
  | solve _ h ih => exact ih.solve h

/-! ## A loaded joint works like the saved one -/

/-- Two joints that differ at most in the translation that a prismatic or wheel joint without limits keeps from an earlier step. -/
inductive Joint.Alike : Joint F → Joint F → Prop
  | refl (j) : Alike j j
  | prismatic (j : Prismatic F) (t : F) : j.enableLimit = false → Alike (.prismatic { j with translation := t }) (.prismatic j)
  | wheel (j : Wheel F) (t : F) : j.enableLimit = false → Alike (.wheel { j with translation := t }) (.wheel j)

theorem Prismatic.solveVel_alike (st : JStep F) (j : Prismatic F) (t : F) (h : j.enableLimit = false) (s : Two F) :
    ({ j with translation := t } : Prismatic F).solveVel st s = ({ (j.solveVel st s).1 with translation := t }, (j.solveVel st s).2) ∧
      (j.solveVel st s).1.enableLimit = false := by
  have hk := congrArg PrismaticDef.enableLimit (Prismatic.solveVel_keeps st j s).1
  refine ⟨?_, hk.trans h⟩
  cases j
  dsimp only at h
  subst h
  unfold Prismatic.solveVel
  simp only [Bool.false_eq_true, if_false]
  split <;> rfl
theorem Wheel.solveVel_alike (st : JStep F) (j : Wheel F) (t : F) (h : j.enableLimit = false) (s : Two F) :
    ({ j with translation := t } : Wheel F).solveVel st s = ({ (j.solveVel st s).1 with translation := t }, (j.solveVel st s).2) ∧
      (j.solveVel st s).1.enableLimit = false := by
  have hk := congrArg WheelDef.enableLimit (Wheel.solveVel_keeps st j s).1
  refine ⟨?_, hk.trans h⟩
  cases j
  dsimp only at h
  subst h
  unfold Wheel.solveVel
  simp only [Bool.false_eq_true, if_false]
  rfl

theorem onTwo_alike {α : Type} {mk mk' : α → Joint F} {vel : Arr (Vel F)} {a b : Nat} {f f' : Two F → α × Two F}
    (h : ∀ s, (f s).2 = (f' s).2 ∧ (mk (f s).1).Alike (mk' (f' s).1)) :
    (onTwo mk vel a b f = none ∧ onTwo mk' vel a b f' = none) ∨
      ∃ j j' v, onTwo mk vel a b f = some (j, v) ∧ onTwo mk' vel a b f' = some (j', v) ∧ j.Alike j' := by
  unfold onTwo
  cases hs : loadTwo vel a b with
  | none => exact .inl ⟨rfl, rfl⟩
  | some s =>
    simp only [Option.bind_eq_bind, Option.bind_some, (h s).1]
    cases storeTwo vel a b (f' s).2 with
    | none => exact .inl ⟨rfl, rfl⟩
    | some v => exact .inr ⟨_, _, v, rfl, rfl, (h s).2⟩

theorem Joint.Alike.solveVel {j j' : Joint F} (h : j.Alike j') (st : JStep F) (vel : Arr (Vel F)) :
    (j.solveVel st vel = none ∧ j'.solveVel st vel = none) ∨
      ∃ k k' v, j.solveVel st vel = some (k, v) ∧ j'.solveVel st vel = some (k', v) ∧ k.Alike k' := by
  cases h with
  | refl =>
    cases j.solveVel st vel with
    | none => exact .inl ⟨rfl, rfl⟩
    | some r => exact .inr ⟨_, _, _, rfl, rfl, .refl _⟩
  | prismatic j t h =>
    refine onTwo_alike fun s => ?_
    obtain ⟨e, e'⟩ := Prismatic.solveVel_alike st j t h s
    rw [e]
    exact ⟨rfl, .prismatic _ _ e'⟩
  | wheel j t h =>
    refine onTwo_alike fun s => ?_
    obtain ⟨e, e'⟩ := Wheel.solveVel_alike st j t h s
    rw [e]
    exact ⟨rfl, .wheel _ _ e'⟩

theorem Joint.Alike.solves {j j' : Joint F} (h : j.Alike j') (st : JStep F) (vs : List (Arr (Vel F))) :
    (j.solves st vs = none ∧ j'.solves st vs = none) ∨
      ∃ k k' log, j.solves st vs = some (k, log) ∧ j'.solves st vs = some (k', log) ∧ k.Alike k' := by
  induction vs generalizing j j' with
  | nil => exact .inr ⟨_, _, _, rfl, rfl, h⟩
  | cons v vs ih =>
    unfold Joint.solves
    simp only [Option.bind_eq_bind]
    rcases h.solveVel st v with ⟨e, e'⟩ | ⟨k, k', v', e, e', hk⟩
    · simp [e, e']
    · rw [e, e']
      simp only [Option.bind_some]
      rcases ih hk with ⟨e, e'⟩ | ⟨l, l', log, e, e', hl⟩
      · simp [e, e']
      · rw [e, e']
        exact .inr ⟨_, _, _, rfl, rfl, hl⟩

theorem Joint.Alike.solvePos {j j' : Joint F} (h : j.Alike j') (pos : Arr (Pos F)) : j.solvePos pos = j'.solvePos pos := by
  cases h with
  | refl => rfl
  | prismatic j t h => rfl
  | wheel j t h => rfl

/-- Joints that are alike after they were initialized do the same. -/
theorem Joint.work_alike {st : JStep F} {bodies : Nat → JBody F} {pos : Arr (Pos F)} {v : Arr (Vel F)} {j j' : Joint F}
    (h : (j.initVel st bodies pos v = none ∧ j'.initVel st bodies pos v = none) ∨
      ∃ k k' v', j.initVel st bodies pos v = some (k, v') ∧ j'.initVel st bodies pos v = some (k', v') ∧ k.Alike k')
    (vs : List (Arr (Vel F))) (ps : List (Arr (Pos F))) : j.work st bodies pos v vs ps = j'.work st bodies pos v vs ps := by
  unfold Joint.work Joint.calls
  simp only [Option.bind_eq_bind]
  rcases h with ⟨e, e'⟩ | ⟨k, k', v', e, e', hk⟩
  · rw [e, e']
  · rw [e, e']
    simp only [Option.bind_some]
    rcases hk.solves st vs with ⟨e, e'⟩ | ⟨l, l', log, e, e', hl⟩
    · rw [e, e']
    · rw [e, e']
      simp only [Option.bind_some, Option.pure_def]
      rw [show l.solvePos = l'.solvePos from funext hl.solvePos]

theorem two_alike {α : Type} {mk : α → Joint F} {pos : Arr (Pos F)} {vel : Arr (Vel F)} {a b : Nat} {f f' : TwoP F → Two F → α × Two F}
    (h : ∀ p s, (f p s).2 = (f' p s).2 ∧ (mk (f p s).1).Alike (mk (f' p s).1)) :
    (((loadTwoP pos a b).bind fun p => onTwo mk vel a b (f p)) = none ∧ ((loadTwoP pos a b).bind fun p => onTwo mk vel a b (f' p)) = none) ∨
      ∃ j j' v, ((loadTwoP pos a b).bind fun p => onTwo mk vel a b (f p)) = some (j, v) ∧
        ((loadTwoP pos a b).bind fun p => onTwo mk vel a b (f' p)) = some (j', v) ∧ j.Alike j' := by
  cases loadTwoP pos a b with
  | none => exact .inl ⟨rfl, rfl⟩
  | some p => exact onTwo_alike (h p)

theorem Revolute.reload (st : JStep F) (bodies : Nat → JBody F) (j : Revolute F) (p : TwoP F) (s : Two F)
    (h : (Joint.revolute j).Unloaded ∨ st.warmStarting = false) :
    (Revolute.ofDef j.getDef).initVel st bodies p s = j.initVel st bodies p s := by
  rcases h with ⟨h1, h2, h3, h4⟩ | h
  · cases j
    simp only at h1 h2 h3 h4
    subst h1 h2 h3 h4
    rfl
  · unfold Revolute.initVel Revolute.warm
    simp only [h, Bool.false_eq_true, if_false]
    rfl

theorem Joint.Alike.prismatic' {j k : Prismatic F} (h : j.enableLimit = false) (e : k = { j with translation := k.translation }) :
    (Joint.prismatic k).Alike (.prismatic j) := by
  rw [e]
  exact .prismatic _ _ h
theorem Joint.Alike.wheel' {j k : Wheel F} (h : j.enableLimit = false) (e : k = { j with translation := k.translation }) :
    (Joint.wheel k).Alike (.wheel j) := by
  rw [e]
  exact .wheel _ _ h

/-- A prismatic joint as it was created. -/
def Prismatic.fresh (j : Prismatic F) : Prismatic F :=
  { j with
    impulse := ⟨0, 0⟩, motorImpulse := 0, lowerImpulse := 0, upperImpulse := 0
    frame := ⟨JBody.zero, JBody.zero⟩, axis := ⟨0, 0⟩, perp := ⟨0, 0⟩, s1 := 0, s2 := 0, a1 := 0, a2 := 0
    k := ⟨⟨0, 0⟩, ⟨0, 0⟩⟩, translation := 0, axialMass := 0 }

theorem Prismatic.ofDef_getDef {j : Prismatic F} (hj : (Joint.prismatic j).Sound) : Prismatic.ofDef j.getDef = some j.fresh := by
  obtain ⟨h1, h2, h3⟩ := hj
  cases j
  simp only at h1 h2 h3
  unfold Prismatic.ofDef Prismatic.new Prismatic.getDef Prismatic.fresh
  simp only [h1, h2, h3, if_true]

theorem Prismatic.reload (st : JStep F) (bodies : Nat → JBody F) (j : Prismatic F) (p : TwoP F) (s : Two F)
    (h : (Joint.prismatic j).Unloaded ∨ st.warmStarting = false) :
    (j.fresh.initVel st bodies p s).2 = (j.initVel st bodies p s).2 ∧
      (Joint.prismatic (j.fresh.initVel st bodies p s).1).Alike (.prismatic (j.initVel st bodies p s).1) := by
  rcases h with ⟨h1, h2, h3, h4⟩ | h
  · cases j with | mk b1 b2 b3 b4 b5 b6 b7 b8 b9 b10 b11 l b13 b14 b15 b16 b17 b18 b19 b20 b21 b22 b23 b24 b25 b26 b27 =>
    simp only at h1 h2 h3 h4
    subst h1 h2 h3 h4
    refine ⟨?_, ?_⟩
    · cases l <;> unfold Prismatic.initVel Prismatic.warm <;> split <;> rfl
    · cases l
      · unfold Prismatic.initVel Prismatic.warm
        split
        · exact .prismatic' rfl rfl
        · exact .prismatic' rfl rfl
      · unfold Prismatic.initVel Prismatic.warm
        split <;> exact .refl _
  · unfold Prismatic.initVel Prismatic.warm
    simp only [h, Bool.false_eq_true, if_false]
    refine ⟨trivial, ?_⟩
    cases j with | mk b1 b2 b3 b4 b5 b6 b7 b8 b9 b10 b11 l b13 b14 b15 b16 b17 b18 b19 b20 b21 b22 b23 b24 b25 b26 b27 =>
    cases l
    · exact .prismatic' rfl rfl
    · exact .refl _

/-- A wheel joint as it was created. -/
def Wheel.fresh (j : Wheel F) : Wheel F :=
  { j with
    impulse := 0, motorImpulse := 0, springImpulse := 0
    lowerImpulse := 0, upperImpulse := 0, translation := 0, frame := ⟨JBody.zero, JBody.zero⟩
    ax := ⟨0, 0⟩, ay := ⟨0, 0⟩, sAx := 0, sBx := 0, sAy := 0, sBy := 0, mass := 0, motorMass := 0, axialMass := 0
    springMass := 0, bias := 0, gamma := 0 }

theorem Wheel.ofDef_getDef {j : Wheel F} (hj : (Joint.wheel j).Sound) : Wheel.ofDef j.getDef = j.fresh := by
  unfold Joint.Sound at hj
  cases j
  simp only at hj
  subst hj
  rfl

theorem Wheel.reload (st : JStep F) (bodies : Nat → JBody F) (j : Wheel F) (p : TwoP F) (s : Two F)
    (h : (Joint.wheel j).Unloaded ∨ st.warmStarting = false) :
    (j.fresh.initVel st bodies p s).2 = (j.initVel st bodies p s).2 ∧
      (Joint.wheel (j.fresh.initVel st bodies p s).1).Alike (.wheel (j.initVel st bodies p s).1) := by
  rcases h with ⟨h1, h2, h3, h4, h5⟩ | h
  · cases j with | mk b1 b2 b3 b4 b5 b6 b7 b8 b9 b10 l b12 b13 b14 b15 b16 b17 b18 b19 b20 b21 b22 b23 b24 b25 b26 b27 b28 b29 b30 b31 b32 =>
    simp only at h1 h2 h3 h4 h5
    subst h1 h2 h3 h4 h5
    refine ⟨?_, ?_⟩
    · cases l <;> unfold Wheel.initVel Wheel.warm <;> split <;> rfl
    · cases l
      · unfold Wheel.initVel Wheel.warm
        split
        · exact .wheel' rfl rfl
        · exact .wheel' rfl rfl
      · unfold Wheel.initVel Wheel.warm
        split <;> exact .refl _
  · unfold Wheel.initVel Wheel.warm
    simp only [h, Bool.false_eq_true, if_false]
    refine ⟨trivial, ?_⟩
    cases j with | mk b1 b2 b3 b4 b5 b6 b7 b8 b9 b10 l b12 b13 b14 b15 b16 b17 b18 b19 b20 b21 b22 b23 b24 b25 b26 b27 b28 b29 b30 b31 b32 =>
    cases l
    · exact .wheel' rfl rfl
    · exact .refl _

theorem Weld.reload (st : JStep F) (bodies : Nat → JBody F) (j : Weld F) (p : TwoP F) (s : Two F)
    (h : (Joint.weld j).Unloaded ∨ st.warmStarting = false) :
    (Weld.ofDef j.getDef).initVel st bodies p s = j.initVel st bodies p s := by
  rcases h with h1 | h
  · cases j
    simp only [Joint.Unloaded] at h1
    subst h1
    rfl
  · unfold Weld.initVel Weld.warm
    simp only [h, Bool.false_eq_true, if_false]
    unfold Weld.prepare Weld.ofDef Weld.getDef
    dsimp only
    split_ifs <;> rfl

theorem FrictionJ.reload (st : JStep F) (bodies : Nat → JBody F) (j : FrictionJ F) (p : TwoP F) (s : Two F)
    (h : (Joint.friction j).Unloaded ∨ st.warmStarting = false) :
    (FrictionJ.ofDef j.getDef).initVel st bodies p s = j.initVel st bodies p s := by
  rcases h with ⟨h1, h2⟩ | h
  · cases j
    simp only at h1 h2
    subst h1 h2
    rfl
  · unfold FrictionJ.initVel FrictionJ.warm
    simp only [h, Bool.false_eq_true, if_false]
    rfl

theorem MotorJ.reload (st : JStep F) (bodies : Nat → JBody F) (j : MotorJ F) (p : TwoP F) (s : Two F)
    (h : (Joint.motor j).Unloaded ∨ st.warmStarting = false) :
    (MotorJ.ofDef j.getDef).initVel st bodies p s = j.initVel st bodies p s := by
  rcases h with ⟨h1, h2⟩ | h
  · cases j
    simp only at h1 h2
    subst h1 h2
    rfl
  · unfold MotorJ.initVel MotorJ.warm
    simp only [h, Bool.false_eq_true, if_false]
    rfl

theorem DistanceJ.reload (st : JStep F) (bodies : Nat → JBody F) (j : DistanceJ F) (p : TwoP F) (s : Two F)
    (hj : (Joint.distance j).Sound) (h : (Joint.distance j).Unloaded) :
    (DistanceJ.ofDef j.getDef).initVel st bodies p s = j.initVel st bodies p s := by
  obtain ⟨k1, k2, k3⟩ := hj
  obtain ⟨h1, h2, h3⟩ := h
  cases j
  simp only at h1 h2 h3 k1 k2 k3
  subst h1 h2 h3
  unfold DistanceJ.ofDef DistanceJ.new DistanceJ.getDef
  dsimp only
  rw [b2max_of_le k1, b2max_of_le k2, b2max_of_le k3]
  rfl
theorem DistanceJ.redef {j : DistanceJ F} (hj : (Joint.distance j).Sound) : (DistanceJ.ofDef j.getDef).getDef = j.getDef := by
  obtain ⟨k1, k2, k3⟩ := hj
  unfold DistanceJ.ofDef DistanceJ.new DistanceJ.getDef
  dsimp only
  rw [b2max_of_le k1, b2max_of_le k2, b2max_of_le k3]

theorem Pulley.reload {j : Pulley F} (hj : (Joint.pulley j).Sound) :
    ∃ k, Pulley.ofDef j.getDef = some k ∧ k.getDef = j.getDef ∧ k.impulse = 0 ∧ k.bodyA = j.bodyA ∧ k.bodyB = j.bodyB ∧
      ∀ st bodies p s, ((Joint.pulley j).Unloaded ∨ st.warmStarting = false) → k.initVel st bodies p s = j.initVel st bodies p s := by
  obtain ⟨h1, h2⟩ := hj
  cases j
  simp only at h1 h2
  subst h2
  unfold Pulley.ofDef Pulley.new Pulley.getDef
  dsimp only
  rw [if_pos h1]
  refine ⟨_, rfl, rfl, rfl, rfl, rfl, fun st bodies p s h => ?_⟩
  rcases h with h | h
  · simp only [Joint.Unloaded] at h
    subst h
    rfl
  · unfold Pulley.initVel Pulley.warm
    simp only [h, Bool.false_eq_true, if_false]
    rfl

/-- A joint of a program can be created again from its definition. -/
theorem Joint.recreate {j : Joint F} (hj : j.Sound) : ∃ d j', j.getDef = some d ∧ d.create = some j' ∧ j.SameAs j' := by
  cases j with
  | revolute j =>
    refine ⟨_, _, rfl, rfl, rfl, ⟨rfl, rfl, rfl, rfl⟩, fun st bodies pos v vs ps h => Joint.work_alike ?_ vs ps⟩
    refine two_alike fun p s => ?_
    rw [Revolute.reload st bodies j p s (h.imp_right And.left)]
    exact ⟨rfl, .refl _⟩
  | prismatic j =>
    refine ⟨_, .prismatic j.fresh, rfl, ?_, rfl, ⟨rfl, rfl, rfl, rfl⟩, fun st bodies pos v vs ps h => Joint.work_alike ?_ vs ps⟩
    · simp only [JointDef.create, Prismatic.ofDef_getDef hj, Option.map_some]
    · exact two_alike fun p s => Prismatic.reload st bodies j p s (h.imp_right And.left)
  | wheel j =>
    refine ⟨_, .wheel j.fresh, rfl, ?_, rfl, ⟨rfl, rfl, rfl, rfl, rfl⟩, fun st bodies pos v vs ps h => Joint.work_alike ?_ vs ps⟩
    · simp only [JointDef.create, Wheel.ofDef_getDef hj]
    · exact two_alike fun p s => Wheel.reload st bodies j p s (h.imp_right And.left)
  | distance j =>
    refine ⟨_, _, rfl, rfl, ?_, ⟨rfl, rfl, rfl⟩, fun st bodies pos v vs ps h => Joint.work_alike ?_ vs ps⟩
    · simp only [Joint.getDef, Option.some.injEq, JointDef.distance.injEq]
      exact DistanceJ.redef hj
    · have h := h.resolve_right fun h => h.2 j rfl
      refine two_alike fun p s => ?_
      rw [DistanceJ.reload st bodies j p s hj h]
      exact ⟨rfl, .refl _⟩
  | weld j =>
    refine ⟨_, _, rfl, rfl, rfl, rfl, fun st bodies pos v vs ps h => Joint.work_alike ?_ vs ps⟩
    refine two_alike fun p s => ?_
    rw [Weld.reload st bodies j p s (h.imp_right And.left)]
    exact ⟨rfl, .refl _⟩
  | friction j =>
    refine ⟨_, _, rfl, rfl, rfl, ⟨rfl, rfl⟩, fun st bodies pos v vs ps h => Joint.work_alike ?_ vs ps⟩
    refine two_alike fun p s => ?_
    rw [FrictionJ.reload st bodies j p s (h.imp_right And.left)]
    exact ⟨rfl, .refl _⟩
  | motor j =>
    refine ⟨_, _, rfl, rfl, rfl, ⟨rfl, rfl⟩, fun st bodies pos v vs ps h => Joint.work_alike ?_ vs ps⟩
    refine two_alike fun p s => ?_
    rw [MotorJ.reload st bodies j p s (h.imp_right And.left)]
    exact ⟨rfl, .refl _⟩
  | pulley j =>
    obtain ⟨k, e, e1, e2, e3, e4, h⟩ := Pulley.reload hj
    refine ⟨_, .pulley k, rfl, ?_, ?_, e2, fun st bodies pos v vs ps h' => Joint.work_alike ?_ vs ps⟩
    · simp only [JointDef.create, e, Option.map_some]
    · simp only [Joint.getDef, e1]
    · unfold Joint.initVel
      simp only [e3, e4]
      refine two_alike fun p s => ?_
      rw [h st bodies p s (h'.imp_right And.left)]
      exact ⟨rfl, .refl _⟩
  | mouse j => exact hj.elim
  | gear j => exact hj.elim

end
end B2
