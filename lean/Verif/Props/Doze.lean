import Verif.Proofs.WorldDoze
import Verif.Proofs.EngineNarrow
import Verif.Props.Rest

set_option linter.unusedSectionVars false

/-!
# C142 and C143: what sleep means for one body

C121 speaks of a world in which everything sleeps. Here the rest of the world may be awake, collide and be pulled about by joints, with
continuous physics or without. A body that is asleep before and after a step was not touched by it: a solver that moves a body wakes it, and nothing that
was woken within a step falls asleep again at its end. A body that was woken stays awake for half a second of simulated time, whatever it does.

Both need the step to be shorter than the half second after which bodies fall asleep; `c142_long_false` shows that the first is false without.
The listener leaves bodies alone and sub-stepping is off.
-/
namespace B2.Props
open B2 Spec World
section
variable {F : Type} [Field F] [LinearOrder F] [IsStrictOrderedRing F] [Elem F] {E : Engine F}

/-- **C142.** A body that is asleep before and after a step is where it was, with the velocity it had. -/
theorem c142_sleeper (hE : LeavesBodies E.env) (hP : PostSolveLinks E.env) {w w' : World F} (h : PlainHist E.env w) {dt : F} {vi pi : Nat} (h0 : 0 ≤ dt) (h1 : dt < 1/2)
    (e : w.step E.env dt vi pi = some w') {b : Nat} (hb : b ∈ w.g.bodyList) (hn : w.typeOf b ≠ .static)
    (ha : (w.phys b).awake = false) (ha' : (w'.phys b).awake = false) :
    SamePlace w w' b ∧ (w'.phys b).v = (w.phys b).v ∧ (w'.phys b).w = (w.phys b).w := by
  obtain ⟨-, -, k⟩ := step_doze hE hP (env_toiForward E) (whist_inv h.hist).toWInv h.complete hb hn e
  have hf := h.fresh hE hP (env_toiForward E) b hb hn ha
  have hc := whist_stable consistent_stable h.hist b hb
  obtain ⟨-, -, l⟩ := k 0 ⟨le_rfl, hf.le, h0, by linarith⟩
  rcases l (posed_iff.mpr ⟨hc.rotation, hc.center⟩) with l | ⟨x1, x2, x3, -, x5, x6⟩
  · rw [ha'] at l; cases l
  · exact ⟨⟨x2, x3, x1⟩, x5, x6⟩

/-- The timer after which a body may fall asleep grows by no more than the time simulated, and a body whose timer stays below half a second stays awake. -/
theorem c143_timer (hE : LeavesBodies E.env) (hP : PostSolveLinks E.env) {ws : Nat → World F} {N : Nat} {dt : Nat → F} {vi pi : Nat → Nat} (h : PlainHist E.env (ws 0))
    (hs : (ws 0).subStepping = false) (h0 : ∀ n < N, 0 ≤ dt n) (e : ∀ n < N, (ws n).step E.env (dt n) (vi n) (pi n) = some (ws (n + 1)))
    {b : Nat} (hb : b ∈ (ws 0).g.bodyList) (hn : (ws 0).typeOf b ≠ .static) (ha : ((ws 0).phys b).awake = true) {s : F} (h1 : 0 ≤ s) (h2 : ((ws 0).phys b).sleepTime ≤ s)
    (ht : s + ((List.range N).map dt).sum < 1/2) :
    ∀ n ≤ N, ((ws n).phys b).awake = true ∧ ((ws n).phys b).sleepTime ≤ s + ((List.range n).map dt).sum := by
  have nonneg : ∀ n ≤ N, 0 ≤ ((List.range n).map dt).sum := fun n hn => List.sum_nonneg (by
    intro x hx
    obtain ⟨m, hm, rfl⟩ := List.mem_map.mp hx
    exact h0 m (lt_of_lt_of_le (List.mem_range.mp hm) hn))
  have grow : ∀ k n, n + k ≤ N → ((List.range n).map dt).sum ≤ ((List.range (n + k)).map dt).sum := by
    intro k
    induction k with
    | zero => intro n _; exact le_rfl
    | succ k ih =>
      intro n hk
      refine (ih n (by omega)).trans ?_
      rw [← Nat.add_assoc, List.range_succ, List.map_append, List.sum_append]
      have := h0 (n + k) (by omega)
      simpa using this
  suffices H : ∀ n ≤ N, PlainHist E.env (ws n) ∧ (ws n).subStepping = false ∧ b ∈ (ws n).g.bodyList ∧ (ws n).typeOf b = (ws 0).typeOf b ∧
      ((ws n).phys b).awake = true ∧ ((ws n).phys b).sleepTime ≤ s + ((List.range n).map dt).sum from fun n hn => (H n hn).2.2.2.2
  intro n
  induction n with
  | zero => intro _; exact ⟨h, hs, hb, rfl, ha, by simpa using h2⟩
  | succ n ih =>
    intro hN
    obtain ⟨i1, i2, i3, i4, i5, i6⟩ := ih (by omega)
    have e' := e n (by omega)
    have hi := (whist_inv i1.hist).toWInv
    obtain ⟨k1, -, k2⟩ := step_doze hE hP (env_toiForward E) hi i1.complete i3 (by rw [i4]; exact hn) e'
    have hsum : ((List.range (n + 1)).map dt).sum = ((List.range n).map dt).sum + dt n := by
      rw [List.range_succ, List.map_append, List.sum_append]; simp
    have hle : ((List.range (n + 1)).map dt).sum ≤ ((List.range N).map dt).sum := by
      have := grow (N - (n + 1)) (n + 1) (by omega)
      rwa [show n + 1 + (N - (n + 1)) = N by omega] at this
    obtain ⟨m1, m2, -⟩ := k2 _ ⟨add_nonneg h1 (nonneg n (by omega)), i6, h0 n (by omega), by rw [hsum] at hle; linarith⟩
    refine ⟨.call (.step _ _ _) i1 trivial (fun _ _ _ _ => i2) (fun d hd => by cases hd) e', ?_, ?_, k1.trans i4, m1 i5, ?_⟩
    · rw [(step_good hi e').rest.subStepping]; exact i2
    · rw [(step_good hi e').eq]; exact i3
    · rw [hsum, ← add_assoc]; exact m2

/-- **C143.** A body that `set_awake(true)` was called on is awake after any number of steps that take less than half a second together. -/
theorem c143_awake (hE : LeavesBodies E.env) (hP : PostSolveLinks E.env) {w : World F} {ws : Nat → World F} {N : Nat} {dt : Nat → F} {vi pi : Nat → Nat} (h : PlainHist E.env w)
    (hs : w.subStepping = false) {b : Nat} (hb : b ∈ w.g.bodyList) (hn : w.typeOf b ≠ .static)
    (e0 : (Call.user (.body b (.setAwake true))).run E.env w = some (ws 0)) (h0 : ∀ n < N, 0 ≤ dt n)
    (e : ∀ n < N, (ws n).step E.env (dt n) (vi n) (pi n) = some (ws (n + 1))) (ht : ((List.range N).map dt).sum < 1/2) :
    ∀ n ≤ N, ((ws n).phys b).awake = true := by
  have e1 : w.setPhys b ((w.phys b).setAwake (w.typeOf b) true) = ws 0 := Option.some.inj e0
  have p1 : ((ws 0).phys b).awake = true ∧ ((ws 0).phys b).sleepTime = 0 := by
    rw [← e1]
    simp [setPhys, Phys.setAwake, hn]
  have p2 : (ws 0).typeOf b = w.typeOf b ∧ (ws 0).g.bodyList = w.g.bodyList ∧ (ws 0).subStepping = w.subStepping := by
    rw [← e1]
    exact ⟨rfl, rfl, rfl⟩
  intro n hN
  exact (c143_timer hE hP (.call (.user (.body b (.setAwake true))) h trivial (fun _ _ _ hc => by cases hc) (fun _ hc => by cases hc) e0) (p2.2.2.trans hs) h0 e (by rw [p2.2.1]; exact hb)
    (by rw [p2.1]; exact hn) p1.1 le_rfl p1.2.le (by rw [zero_add]; exact ht) n hN).1

end

/-! ### Examples -/
namespace DozeEx
attribute [local instance] lowElem
open MomEx

def asleep (d : BodyDef ℚ) : BodyDef ℚ := { d with awake := false }

/-- A ball flies at a sleeping one and wakes it. Another sleeps by itself, though it has a velocity and gravity pulls at it. -/
def calls : List (Call ℚ) :=
  [.createBody (body .dynamic 0 0 3), .createFixture 0 BounceEx.ball, .createBody (asleep (body .dynamic 1 0 0)), .createFixture 1 BounceEx.ball,
   .createBody (asleep (body .dynamic 10 0 2)), .createFixture 2 BounceEx.ball, .step 0 8 3,
   .user (.body 1 (.setAwake false))]
def w0 : World ℚ := (runPlain eng.env calls Ex.w0).get (by decide +kernel)
def w1 : World ℚ := (w0.step eng.env (1/60) 8 3).get (by decide +kernel)

theorem quiet : LeavesBodies eng.env ∧ PostSolveLinks eng.env :=
  ⟨(by intro w k op h; rw [show eng.env.react w k = [] from rfl] at h; cases h), fun x y c h => (silent_calm (env := eng.env) (fun _ _ => rfl) x y c h).2⟩
theorem w0_plain : PlainHist eng.env w0 := runPlain_plain calls (w := Ex.w0) (.new ..) (by rw [w0, Option.some_get])

/-- The hypotheses of C142 hold of the lone sleeper; the other is woken and moved. -/
example : LeavesBodies eng.env ∧ PostSolveLinks eng.env ∧ PlainHist eng.env w0 ∧ w0.step eng.env (1/60) 8 3 = some w1 ∧ 2 ∈ w0.g.bodyList ∧ w0.typeOf 2 ≠ .static ∧
    (w0.phys 2).awake = false ∧ (w1.phys 2).awake = false ∧ (w0.phys 2).v = ⟨2, 0⟩ ∧ w0.gravity ≠ ⟨0, 0⟩ ∧ w0.continuous = true ∧
    (w0.phys 1).awake = false ∧ (w1.phys 1).awake = true ∧ (w1.phys 1).sweep.c ≠ (w0.phys 1).sweep.c :=
  ⟨quiet.1, quiet.2, w0_plain, by rw [w1, Option.some_get], by decide +kernel, by decide +kernel, by decide +kernel, by decide +kernel, by decide +kernel, by decide +kernel,
    by decide +kernel, by decide +kernel, by decide +kernel, by decide +kernel⟩

/-- Two slow balls touch, far from everything and free of gravity; one of them sleeps. -/
def slow : List (Call ℚ) :=
  [.createBody { body .dynamic 0 0 (1/200) with gravityScale := 0 }, .createFixture 0 BounceEx.ball,
   .createBody { body .dynamic 1 0 0 with gravityScale := 0 }, .createFixture 1 BounceEx.ball, .step 0 8 3, .user (.body 1 (.setAwake false))]
def l0 : World ℚ := (runPlain eng.env slow Ex.w0).get (by decide +kernel)
def l1 : World ℚ := (l0.step eng.env 1 8 3).get (by decide +kernel)

/-- In a step of half a second or more a sleeping body may be woken, moved and put to sleep again. -/
theorem c142_long_false : ¬ ∀ (w w' : World ℚ) (dt : ℚ) (vi pi b : Nat), PlainHist eng.env w → 0 ≤ dt → w.step eng.env dt vi pi = some w' → b ∈ w.g.bodyList →
    w.typeOf b ≠ .static → (w.phys b).awake = false → (w'.phys b).awake = false → SamePlace w w' b := by
  intro h
  have k := h l0 l1 1 8 3 1 (runPlain_plain slow (w := Ex.w0) (.new ..) (by rw [l0, Option.some_get])) (by norm_num) (by rw [l1, Option.some_get]) (by decide +kernel)
    (by decide +kernel) (by decide +kernel) (by decide +kernel)
  exact absurd k.c (by decide +kernel)

/-- A resting ball is woken and stays awake. -/
def k0 : World ℚ := ((Call.user (.body 2 (.setAwake true))).run eng.env w0).get (by decide +kernel)
def k1 : World ℚ := (k0.step eng.env (1/10) 8 3).get (by decide +kernel)
def k2 : World ℚ := (k1.step eng.env (1/4) 8 3).get (by decide +kernel)
def ks : Nat → World ℚ
  | 0 => k0
  | 1 => k1
  | _ => k2

example : LeavesBodies eng.env ∧ PostSolveLinks eng.env ∧ PlainHist eng.env w0 ∧ w0.subStepping = false ∧ 2 ∈ w0.g.bodyList ∧ w0.typeOf 2 ≠ .static ∧ (w0.phys 2).awake = false ∧
    (Call.user (.body 2 (.setAwake true))).run eng.env w0 = some (ks 0) ∧ (∀ n ≤ 2, ((ks n).phys 2).awake = true) := by
  have e0 : (Call.user (.body 2 (.setAwake true))).run eng.env w0 = some (ks 0) := by rw [ks, k0, Option.some_get]
  have hs : w0.subStepping = false := by decide +kernel
  have hb : 2 ∈ w0.g.bodyList := by decide +kernel
  have hn : w0.typeOf 2 ≠ .static := by decide +kernel
  refine ⟨quiet.1, quiet.2, w0_plain, hs, hb, hn, by decide +kernel, e0, ?_⟩
  refine c143_awake (E := eng) (N := 2) (dt := fun n => if n = 0 then 1/10 else 1/4) (vi := fun _ => 8) (pi := fun _ => 3) quiet.1 quiet.2 w0_plain hs hb hn e0
    (fun n _ => by split <;> norm_num) (fun n hn => ?_) (by decide +kernel)
  have : n = 0 ∨ n = 1 := by omega
  rcases this with rfl | rfl
  · show k0.step eng.env _ 8 3 = some k1
    rw [k1, Option.some_get]; rfl
  · show k1.step eng.env _ 8 3 = some k2
    rw [k2, Option.some_get]; rfl

end DozeEx
end B2.Props
