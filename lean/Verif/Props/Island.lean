import Verif.Proofs.WorldIslands
import Verif.Proofs.WorldPointsHist
import Verif.Proofs.WorldExample

/-!
# Islands

`w` is a world reached by any history of calls, `w1` the world in which a step of `w` runs the solver, `isls` the islands
in the order in which they were solved.
-/
namespace B2.Props
set_option linter.unusedSectionVars false
open B2 Spec World

section
variable {F : Type} [Field F] [LinearOrder F] [IsStrictOrderedRing F] [Elem F]

private theorem starts {env : Env F} {w w1 : World F} (h : WHist env w) (hs : StartsSolve env w w1) : WInv w1 := by
  obtain ⟨a, e1, e2⟩ := hs
  obtain ⟨v, g1, rfl, -⟩ := stepBegin_good (whist_inv h).toWInv e1
  have hw1 : WInv { v with newContacts := false, locked := true } := g1.winv.frame rfl rfl
  exact (collide_good hw1 e2).1.winv

private theorem inv {env : Env F} {w w1 w' : World F} {isls : List Island} {step : TimeStep F} (h : WHist env w) (hs : StartsSolve env w w1)
    (e : w1.solveIslands env step = some (w', isls)) : GI w1 w' isls ∧ (PostSolveCalm env → TI w1 w' isls w1.g.bodyList) := by
  have hi := (starts h hs).toGInv
  unfold solveIslands at e
  dsimp only at e
  rw [(clearIslandFlags_mild w1).g] at e
  have := (seeds_spec (env := env) (step := step) hi w1.g.bodyList (fun _ h => h) (GI.start w1) (fun _ => TI.start w1) (fun _ => CI.start w1)).2 w' isls e
  exact ⟨this.1, by simpa using this.2.1⟩

/-! ## C37 -/

/-- Whatever the callbacks do, no non-static body, no contact and no joint is in two islands or twice in one; all bodies
of islands are enabled. -/
theorem c37_exclusive {env : Env F} {w w1 w' : World F} {isls : List Island} {step : TimeStep F} (h : WHist env w) (hs : StartsSolve env w w1)
    (e : w1.solveIslands env step = some (w', isls)) :
    (∀ (i j : Nat) (I J : Island), isls[i]? = some I → isls[j]? = some J → i ≠ j →
      (∀ b ∈ I.bodies, b ∈ J.bodies → (w1.g.bodies b).type = .static) ∧ (∀ c ∈ I.contacts, c ∉ J.contacts) ∧ (∀ k ∈ I.joints, k ∉ J.joints)) ∧
    ∀ I ∈ isls, I.bodies.Nodup ∧ I.contacts.Nodup ∧ I.joints.Nodup ∧ ∀ b ∈ I.bodies, b ∈ w1.g.bodyList ∧ (w1.g.bodies b).enabled = true := by
  obtain ⟨g, -⟩ := inv h hs e
  refine ⟨?_, fun I hI => ⟨(g.bodies I hI).1, (g.contacts I hI).1, (g.joints I hI).1, (g.bodies I hI).2⟩⟩
  have key : ∀ (i j : Nat) (I J : Island), isls[i]? = some I → isls[j]? = some J → i < j → Apart w1 I J := by
    intro i j I J hi hj hij
    rw [List.getElem?_eq_some_iff] at hi hj
    obtain ⟨hi, rfl⟩ := hi
    obtain ⟨hj, rfl⟩ := hj
    exact List.pairwise_iff_getElem.mp g.apart i j hi hj hij
  intro i j I J hi hj hij
  rcases Nat.lt_or_gt_of_ne hij with hlt | hlt
  · exact key i j I J hi hj hlt
  · obtain ⟨p, q, r⟩ := key j i J I hj hi hlt
    exact ⟨fun b hb hb' => p b hb' hb, fun c hc hc' => q c hc' hc, fun c hc hc' => r c hc' hc⟩

/-- Every awake, enabled, non-static body is in exactly one island. -/
theorem c37_cover {env : Env F} {w w1 w' : World F} {isls : List Island} {step : TimeStep F} (h : WHist env w) (hs : StartsSolve env w w1)
    (hE : PostSolveCalm env) (e : w1.solveIslands env step = some (w', isls)) {b : Nat} (hb : b ∈ w1.g.bodyList) (ha : (w1.phys b).awake = true)
    (hen : (w1.g.bodies b).enabled = true) (hn : (w1.g.bodies b).type ≠ .static) : ∃! i : Nat, ∃ I, isls[i]? = some I ∧ b ∈ I.bodies := by
  obtain ⟨g, t⟩ := inv h hs e
  obtain ⟨-, I, hI, hbI⟩ := (g.flag b hb).mp ((t hE).covered b hb ha hen hn)
  obtain ⟨i, hi⟩ := List.mem_iff_getElem?.mp hI
  refine ⟨i, ⟨I, hi, hbI⟩, ?_⟩
  rintro j ⟨J, hj, hbJ⟩
  by_contra hne
  exact hn (((c37_exclusive h hs e).1 i j I J hi hj (fun h => hne h.symm)).1 b hbI hbJ)

/-- With a non-static body, everything linked to it is in the same island: the contact or joint and the other body. -/
theorem c37_linked {env : Env F} {w w1 w' : World F} {isls : List Island} {step : TimeStep F} (h : WHist env w) (hs : StartsSolve env w w1)
    (hE : PostSolveCalm env) (e : w1.solveIslands env step = some (w', isls)) {I : Island} (hI : I ∈ isls) {x : Nat} (hx : x ∈ I.bodies)
    (hn : (w1.g.bodies x).type ≠ .static) :
    (∀ y, Linked w1 x y → y ∈ I.bodies) ∧ (∀ c y, Transmits w1 c → Connects w1 c x y → c ∈ I.contacts) ∧ (∀ j y, Ties w1 j x y → j ∈ I.joints) := by
  obtain ⟨-, t⟩ := inv h hs e
  have t := t hE
  refine ⟨?_, fun c y h1 h2 => (t.closedC I hI x hx hn c y h1 h2).1, fun j y h1 => (t.closedJ I hI x hx hn j y h1).1⟩
  rintro y (⟨c, h1, h2⟩ | ⟨j, h1⟩)
  · exact (t.closedC I hI x hx hn c y h1 h2).2
  · exact (t.closedJ I hI x hx hn j y h1).2

/-- An island holds nothing but what can be reached from one awake body of it, its seed, along links through non-static
bodies; its contacts transmit forces, its joints join enabled bodies, and the bodies of both are in the island. -/
theorem c37_reach {env : Env F} {w w1 w' : World F} {isls : List Island} {step : TimeStep F} (h : WHist env w) (hs : StartsSolve env w w1)
    (hE : PostSolveCalm env) (e : w1.solveIslands env step = some (w', isls)) {I : Island} (hI : I ∈ isls) :
    (∃ seed ∈ I.bodies, (w1.phys seed).awake = true ∧ (w1.g.bodies seed).enabled = true ∧ (w1.g.bodies seed).type ≠ .static ∧ ∀ b ∈ I.bodies, Reach w1 seed b) ∧
    (∀ c ∈ I.contacts, Transmits w1 c ∧ ∀ x y, Connects w1 c x y → x ∈ I.bodies) ∧
    (∀ j ∈ I.joints, ∃ x y, x ∈ I.bodies ∧ y ∈ I.bodies ∧ Ties w1 j x y) := by
  obtain ⟨-, t⟩ := inv h hs e
  have t := t hE
  exact ⟨t.reach I hI, t.onlyC I hI, t.onlyJ I hI⟩

/-- Building and solving the islands never panics unless a post-solve callback or a solver does, and a solver is only asked about islands
that are `Fitted` and have points: the search never exceeds its bound,
never meets a disabled body, never borrows a body twice, the islands fit the solver's arrays, and their contacts have points (if
sensors are switched as `Tame` allows, see C109). -/
theorem c37_total {env : Env F} {w w1 : World F} {step : TimeStep F} (h : TameHist env w) (hE : CallbacksTame env) (hP : PostSolveLinks env) (hR : SolversRun env)
    (hs : StartsSolve env w w1) (hd : 0 ≤ step.dtRatio) (hT : ∀ (v : World F) c, v.listen env (.postSolve c) ≠ none) : ∃ w' isls, w1.solveIslands env step = some (w', isls) := by
  have hi := (starts (tame_whist h) hs).toGInv
  have hS : Solid w1 ∧ Pressing w1 := by
    obtain ⟨a, e1, e2⟩ := hs
    have h1 : Pts ({ a with locked := true } : World F) := (stepBegin_keep2 e1).pts (tame_pts hE hR.impulses h)
    have h2 := (collide_keep2 hE e2).pts h1
    exact ⟨h2.1, h2.2.2⟩
  have := (seeds_spec (env := env) (step := step) hi w1.g.bodyList (fun _ h => h) (GI.start w1) (fun _ => TI.start w1) (fun _ => CI.start w1)).1 hT hE hR.impulses hP hR hd ((Keep2.firm (clearIslandFlags_firm w1)).solid hS.1) ((clearIslandFlags_firm w1).push hS.2)
  cases e : w1.solveIslands env step with
  | none =>
    unfold solveIslands at e
    dsimp only at e
    rw [(clearIslandFlags_mild w1).g] at e
    exact absurd e this
  | some x => exact ⟨x.1, x.2, rfl⟩

/-! ## C62 -/

/-- When the island of a seed is handed to the solver, the index stored in each of its bodies is the body's position in the
island, and both bodies of each of its contacts and joints are in it: the solver's arrays are read and written at the
right bodies. -/
theorem c62_index {env : Env F} {w w1 v : World F} {isls : List Island} {step : TimeStep F} {pre post : List Nat} {seed : Nat} {s : Search F} (h : WHist env w)
    (hs : StartsSolve env w w1) (hE : PostSolveLinks env) (hl : w1.g.bodyList = pre ++ seed :: post)
    (e : pre.foldlM (solveSeed env step) (w1.clearIslandFlags, []) = some (v, isls)) (hseed : v.isSeed seed = true) (hb : v.buildIsland seed = some s) :
    (∀ (i b : Nat), s.island.bodies[i]? = some b → (s.w.phys b).islandIndex = i) ∧
    (∀ c ∈ s.island.contacts, ∀ x y, Connects w1 c x y → ∃ i : Nat, s.island.bodies[i]? = some x) ∧
    (∀ j ∈ s.island.joints, (∃ i : Nat, s.island.bodies[i]? = some (w1.g.joints j).a) ∧ ∃ i : Nat, s.island.bodies[i]? = some (w1.g.joints j).b) := by
  have hi := (starts h hs).toGInv
  obtain ⟨g, -, t⟩ := (seeds_spec (env := env) (step := step) hi pre (fun b hb => by rw [hl]; simp [hb]) (GI.start w1) (fun _ => TI.start w1) (fun _ => CI.start w1)).2 v isls e
  have t := t hE
  have hm : seed ∈ v.g.bodyList := by rw [g.g, hl]; simp
  rcases solveSeed_spec (env := env) (step := step) (isls := isls) (by rw [g.g]; exact hi) g.ends hm with ⟨p, -⟩ | ⟨-, s', a1, a2, a3, -⟩
  · rw [hseed] at p; cases p
  · rw [hb] at a1
    cases a1
    refine ⟨a2.index, ?_, ?_⟩
    · intro c hc x y hxy
      exact List.mem_iff_getElem?.mp ((CI.onlyC' hi g t a2 a3 c hc).2 x y hxy)
    · intro j hj
      obtain ⟨-, x, hx, hn, y, ht⟩ := a2.jfresh j hj
      rw [g.g] at hn
      have hy := ((CI.island hi g t a2 a3).2 x hx hn j y (t.kept.symm.ties ht)).2
      have he := ht.ends
      rw [g.g] at he
      rw [← List.mem_iff_getElem?, ← List.mem_iff_getElem?]
      rcases he with ⟨h1, h2⟩ | ⟨h1, h2⟩
      · rw [h1, h2]; exact ⟨hx, hy⟩
      · rw [h1, h2]; exact ⟨hy, hx⟩

end

/-! ### A world that meets the hypotheses -/
section
attribute [local instance] exElem

private theorem exCalm : PostSolveCalm Ex.env := by
  intro w w' c e
  have : w' = { w with log := ⟨.postSolve c, w.locked⟩ :: w.log, tick := w.tick + 1 } := (Option.some.inj e).symm
  subst this
  exact ⟨fun _ => rfl, fun _ => rfl, fun _ => rfl⟩

/-- A fourth ball that touches the fixed one only: a second island, which shares the fixed ball. -/
private def exCalls : List (Call ℚ) := [.createBody (Ex.body .dynamic (-3/2) (-3/2)), .createFixture 3 Ex.ball, .step (1/60) 8 3]
private def exW : World ℚ := (runAll Ex.env exCalls Ex.w1).get (by decide +kernel)
private theorem exHist : WHist Ex.env exW := runAll_hist exCalls Ex.w1_hist (by rw [exW, Option.some_get])
private def exBegin : World ℚ := (exW.stepBegin Ex.env).get (by decide +kernel)
private def exStart : World ℚ := (World.collide Ex.env { exBegin with locked := true }).get (by decide +kernel)
private theorem exStarts : StartsSolve Ex.env exW exStart := ⟨exBegin, by rw [exBegin, Option.some_get], by rw [exStart, Option.some_get]⟩
private def exStep : TimeStep ℚ := exStart.timeStep (1/60) 8 3
private def exIsls : World ℚ × List Island := (exStart.solveIslands Ex.env exStep).get (by decide +kernel)
private theorem exSolved : exStart.solveIslands Ex.env exStep = some (exIsls.1, exIsls.2) := by rw [exIsls, Option.some_get]

-- the hypotheses of `c37_exclusive`, `c37_linked`, `c37_reach` and `c37_total` hold of this step, which has two islands
example : WHist Ex.env exW ∧ TameHist Ex.env exW ∧ CallbacksTame Ex.env ∧ PostSolveLinks Ex.env ∧ SolversRun Ex.env ∧ 0 ≤ exStep.dtRatio ∧ StartsSolve Ex.env exW exStart ∧ PostSolveCalm Ex.env ∧ exStart.solveIslands Ex.env exStep = some (exIsls.1, exIsls.2) ∧
    (∀ (v : World ℚ) c, v.listen Ex.env (.postSolve c) ≠ none) ∧
    (exIsls.2.map fun I => (I.bodies, I.contacts, I.joints)) = [([3, 1], [2], []), ([2, 0, 1], [1, 0], [0])] :=
  ⟨exHist, runAll_tame exCalls (by decide +kernel) Ex.w1_tame (by rw [exW, Option.some_get]), fun _ _ _ h => (by cases h), fun w w' c e => (exCalm w w' c e).2, ⟨fun _ _ _ _ _ _ _ => rfl, fun _ _ _ _ _ _ _ => rfl, fun _ _ _ _ _ _ _ h => (by cases h)⟩, by decide +kernel, exStarts, exCalm, exSolved, fun v c h => (by cases h), by decide +kernel⟩
-- those of `c37_cover`
example : 3 ∈ exStart.g.bodyList ∧ (exStart.phys 3).awake = true ∧ (exStart.g.bodies 3).enabled = true ∧ (exStart.g.bodies 3).type ≠ .static := by
  decide +kernel
-- two bodies that are linked, as in `c37_linked`
example : Ties exStart 0 2 0 := ⟨by decide +kernel, by decide +kernel, by decide +kernel, by decide +kernel⟩

private def exMid : World ℚ × List Island := ([3].foldlM (solveSeed Ex.env exStep) (exStart.clearIslandFlags, [])).get (by decide +kernel)
private def exFound : Search ℚ := (exMid.1.buildIsland 2).get (by decide +kernel)
-- the hypotheses of `c62_index`: the second island
example : exStart.g.bodyList = [3] ++ 2 :: [1, 0] ∧ [3].foldlM (solveSeed Ex.env exStep) (exStart.clearIslandFlags, []) = some (exMid.1, exMid.2) ∧
    exMid.1.isSeed 2 = true ∧ exMid.1.buildIsland 2 = some exFound ∧ (exFound.w.phys 0).islandIndex = 1 :=
  ⟨by decide +kernel, by rw [exMid, Option.some_get], by decide +kernel, by rw [exFound, Option.some_get], by decide +kernel⟩
end
end B2.Props
