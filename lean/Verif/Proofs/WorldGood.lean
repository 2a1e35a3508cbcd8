import Verif.Proofs.WorldDestroy

/-! What the parts of a time step preserve. -/
namespace B2
set_option linter.unusedSectionVars false
open Spec

section
variable {F : Type} [Field F] [LinearOrder F] [IsStrictOrderedRing F] [Elem F]

/-- Numeric changes by the engine: no contact starts or stops touching, is flagged for filtering or counted. -/
structure Mild (w w' : World F) : Prop extends WFrame w w' where
  filter : ∀ c, (w'.cst c).filter = (w.cst c).filter
  touching : ∀ c, (w'.cst c).touching = (w.cst c).touching
  toiCount : ∀ c, (w'.cst c).toiCount = (w.cst c).toiCount
  awake : ∀ b, w.typeOf b = .static → (w'.phys b).awake = (w.phys b).awake
  log : ∃ ev, w'.log = ev ++ w.log ∧ ∀ e ∈ ev, neutral e.kind ∧ e.locked = w.locked

namespace Mild
variable {w w' w'' : World F}
theorem refl (w : World F) : Mild w w := ⟨.refl w, fun _ => rfl, fun _ => rfl, fun _ => rfl, fun _ _ => rfl, [], rfl, by simp⟩
theorem trans (h : Mild w w') (h' : Mild w' w'') : Mild w w'' := by
  refine ⟨h.toWFrame.trans h'.toWFrame, fun c => (h'.filter c).trans (h.filter c), fun c => (h'.touching c).trans (h.touching c),
    fun c => (h'.toiCount c).trans (h.toiCount c), fun b hb => (h'.awake b (by rw [h.typeOf]; exact hb)).trans (h.awake b hb), ?_⟩
  obtain ⟨e1, a1, a2⟩ := h.log
  obtain ⟨e2, b1, b2⟩ := h'.log
  refine ⟨e2 ++ e1, by rw [b1, a1, List.append_assoc], fun e he => ?_⟩
  rcases List.mem_append.mp he with he | he
  · obtain ⟨c1, c2⟩ := b2 e he
    exact ⟨c1, by rw [c2, h.locked]⟩
  · exact a2 e he
theorem quiet (h : Quiet w w') (hl : w'.log = w.log) : Mild w w' :=
  ⟨h.toWFrame, h.toCalm0.filter, h.touching, h.toCalm0.toiCount, h.awake, [], hl, by simp⟩
theorem tr {env : Env F} (h : Mild w w') : Tr env w w' := by
  obtain ⟨ev, e1, e2⟩ := h.log
  refine ⟨fun hs b hb ht => ?_, fun hf => hf.congr (by rw [h.g]; exact fun _ h => h) (by rw [h.g]; exact fun _ h => h) (by rw [h.g]) (by rw [h.g]) (fun f => by rw [h.g])
    (fun c => by rw [h.filter]; exact id), fun he => he.congr (by rw [h.g]) (fun c _ => h.touching c) e1 (fun e he => (e2 e he).1)⟩
  rw [h.g] at hb
  rw [h.typeOf] at ht
  rw [h.awake b ht]
  exact hs b hb ht
end Mild

namespace World

theorem setPhys_mild {w : World F} {b : Nat} {p : Phys F} (h : w.typeOf b = .static → p.awake = (w.phys b).awake) : Mild w (w.setPhys b p) := by
  refine ⟨⟨rfl⟩, fun _ => rfl, fun _ => rfl, fun _ => rfl, fun x hx => ?_, [], rfl, by simp⟩
  by_cases hb : x = b
  · subst hb
    rw [← h hx]
    exact congrArg Phys.awake (upd_same _ _ _)
  · exact congrArg Phys.awake (upd_other _ _ hb)

theorem setCst_mild {w : World F} {c : Nat} {s : CState F} (h1 : s.filter = (w.cst c).filter) (h2 : s.touching = (w.cst c).touching)
    (h3 : s.toiCount = (w.cst c).toiCount) : Mild w (w.setCst c s) :=
  ⟨⟨rfl⟩, fun x => proj_upd (fun q : CState F => q.filter) h1 x, fun x => proj_upd (fun q : CState F => q.touching) h2 x,
    fun x => proj_upd (fun q : CState F => q.toiCount) h3 x, fun _ _ => rfl, [], rfl, by simp⟩

theorem setAwake_mild (w : World F) (b : Nat) (flag : Bool) : Mild w (w.setAwake b flag) := .quiet (setAwake_quiet w b flag) rfl

theorem listen_mild {env : Env F} {w w' : World F} {k : EventKind} (hk : neutral k) (h : w.listen env k = some w') : Mild w w' := by
  obtain ⟨q, l⟩ := listen_quiet h
  refine ⟨q.toWFrame, q.toCalm0.filter, q.touching, q.toCalm0.toiCount, q.awake, if env.listener then [⟨k, w.locked⟩] else [], ?_, ?_⟩
  · rw [l]; split <;> rfl
  · intro e he
    split at he
    · simp only [List.mem_singleton] at he; subst he; exact ⟨hk, rfl⟩
    · simp at he

theorem foldl_mild {α : Type} {f : World F → α → World F} {l : List α} (hf : ∀ w, ∀ x ∈ l, Mild w (f w x)) (w : World F) : Mild w (l.foldl f w) :=
  foldl_inv (fun x => Mild w x) (.refl w) (fun x hx v h => h.trans (hf v x hx))

/-! ### Islands -/

theorem jIsland_mild (w : World F) (j : Nat) (x : Bool) : Mild w { w with jIsland := upd w.jIsland j x } :=
  ⟨⟨rfl⟩, fun _ => rfl, fun _ => rfl, fun _ => rfl, fun _ _ => rfl, [], rfl, by simp⟩

theorem clearIslandFlags_mild (w : World F) : Mild w w.clearIslandFlags := by
  unfold clearIslandFlags
  dsimp only
  refine Mild.trans ?_ (foldl_mild (fun v j _ => jIsland_mild v j false) _)
  refine Mild.trans ?_ (foldl_mild (fun _ _ _ => setCst_mild (by rfl) (by rfl) (by rfl)) _)
  exact foldl_mild (fun _ _ _ => setPhys_mild (by intro _; rfl)) _

theorem pushBody_mild {b o : Nat} {s s' : Search F} (h : pushBody b s o = some s') : Mild s.w s'.w := by
  unfold pushBody at h
  split at h
  · cases h; exact .refl _
  · split at h
    · cases h
    · cases h; exact setPhys_mild (by intro _; rfl)

theorem visitContact_mild {b : Nat} {s s' : Search F} {e : Nat × Nat} (h : visitContact b s e = some s') : Mild s.w s'.w := by
  unfold visitContact at h
  dsimp only at h
  split at h
  · cases h; exact .refl _
  split at h
  · cases h; exact .refl _
  split at h
  · cases h; exact .refl _
  exact Mild.trans (setCst_mild (by rfl) (by rfl) (by rfl)) (pushBody_mild h)

theorem visitJoint_mild {b : Nat} {s s' : Search F} {e : Nat × Nat} (h : visitJoint b s e = some s') : Mild s.w s'.w := by
  unfold visitJoint at h
  split at h
  · cases h; exact .refl _
  split at h
  · cases h; exact .refl _
  exact Mild.trans (jIsland_mild s.w e.1 true) (pushBody_mild h)

theorem visitBody_mild {b : Nat} {s s' : Search F} (h : visitBody s b = some s') : Mild s.w s'.w := by
  unfold visitBody at h
  split at h
  · cases h
  dsimp only at h
  set w1 := s.w.setPhys b { s.w.phys b with islandIndex := s.island.bodies.length } with hw1
  have m1 : Mild s.w w1 := setPhys_mild (by intro _; rfl)
  split at h
  · cases h; exact m1
  rename_i ht
  have m2 : Mild w1 (w1.setPhys b { w1.phys b with awake := true }) := setPhys_mild fun h => absurd h ht
  simp only [Option.bind_eq_bind, Option.bind_eq_some_iff] at h
  obtain ⟨s1, h1, h2⟩ := h
  refine (m1.trans m2).trans (Mild.trans (w' := s1.w) ?_ ?_)
  · exact foldlM_inv (fun x : Search F => Mild _ x.w) h1 (.refl _) (fun e _ x x' hx hv => hx.trans (visitContact_mild hv))
  · exact foldlM_inv (fun x : Search F => Mild _ x.w) h2 (.refl _) (fun e _ x x' hx hv => hx.trans (visitJoint_mild hv))

theorem search_mild : ∀ {n : Nat} {s s' : Search F}, search n s = some s' → Mild s.w s'.w := by
  intro n
  induction n with
  | zero => intro s s' h; cases h
  | succ n ih =>
    intro s s' h
    unfold search at h
    split at h
    · cases h; exact .refl _
    · rename_i b st hst
      simp only [Option.bind_eq_bind, Option.bind_eq_some_iff] at h
      obtain ⟨s1, h1, h2⟩ := h
      exact (visitBody_mild h1).trans (ih h2)

theorem writeBack_mild (w : World F) (bodies : List Nat) (states : List (BState F)) : Mild w (w.writeBack bodies states) := by
  unfold writeBack
  exact foldl_mild (fun _ _ _ => setPhys_mild (by intro _; rfl)) _

theorem report_mild {env : Env F} {w w' : World F} {l : List Nat} (h : w.report env l = some w') : Mild w w' :=
  foldlM_inv (fun x : World F => Mild w x) h (.refl _) (fun c _ x x' hx hv => hx.trans (listen_mild (k := .postSolve c) trivial hv))

theorem sleepTimers_mild (h : F) : ∀ (l : List Nat) (w : World F) (m : F), Mild w (sleepTimers h l w m).1 := by
  intro l
  induction l with
  | nil => intro w m; exact .refl _
  | cons b l ih =>
    intro w m
    unfold sleepTimers
    split
    · exact ih _ _
    · dsimp only
      split
      · exact Mild.trans (setPhys_mild (by intro _; rfl)) (ih _ _)
      · exact Mild.trans (setPhys_mild (by intro _; rfl)) (ih _ _)

theorem sleepIsland_mild (w : World F) (h : F) (l : List Nat) (ok : Bool) : Mild w (w.sleepIsland h l ok) := by
  unfold sleepIsland
  dsimp only
  split
  · exact (sleepTimers_mild h l w maxFlt).trans (foldl_mild (fun v b _ => setAwake_mild v b false) _)
  · exact sleepTimers_mild h l w maxFlt

theorem islandMove_mild {env : Env F} {w w' : World F} {cap : Nat} {isl : Island} {step : TimeStep F} {r : Bool}
    (h : w.islandMove env cap isl step = some (w', r)) : Mild w w' := by
  unfold islandMove at h
  split at h
  · cases h
  simp only [Option.bind_eq_bind, Option.bind_eq_some_iff] at h
  obtain ⟨w1, h1, h2⟩ := h
  have m1 := report_mild h1
  have m0 : Mild w w1 := by
    refine Mild.trans ?_ m1
    refine Mild.trans ?_ (writeBack_mild _ _ _)
    refine Mild.trans ?_ (foldl_mild (fun _ _ _ => setCst_mild (by rfl) (by rfl) (by rfl)) _)
    exact foldl_mild (fun _ _ _ => setPhys_mild (by intro _; rfl)) _
  cases h2
  exact m0

theorem islandSolve_inv {env : Env F} {w w' : World F} {cap : Nat} {isl : Island} {step : TimeStep F}
    (h : w.islandSolve env cap isl step = some w') : ∃ v r, w.islandMove env cap isl step = some (v, r) ∧
      w' = if v.allowSleep then v.sleepIsland step.dt isl.bodies r else v := by
  unfold islandSolve at h
  simp only [Option.bind_eq_bind, Option.bind_eq_some_iff] at h
  obtain ⟨⟨v, r⟩, h1, h2⟩ := h
  cases h2
  exact ⟨v, r, h1, rfl⟩

theorem islandSolve_mild {env : Env F} {w w' : World F} {cap : Nat} {isl : Island} {step : TimeStep F}
    (h : w.islandSolve env cap isl step = some w') : Mild w w' := by
  obtain ⟨v, r, h1, rfl⟩ := islandSolve_inv h
  have m0 := islandMove_mild h1
  split
  · exact m0.trans (sleepIsland_mild _ _ _ _)
  · exact m0

theorem releaseStatics_mild (w : World F) (l : List Nat) : Mild w (w.releaseStatics l) := by
  refine foldl_mild (fun v b _ => ?_) _
  split
  · exact setPhys_mild (by intro _; rfl)
  · exact .refl _

theorem solveSeed_mild {env : Env F} {step : TimeStep F} {x x' : World F × List Island} {seed : Nat}
    (h : solveSeed env step x seed = some x') : Mild x.1 x'.1 := by
  unfold solveSeed at h
  split at h
  · cases h; exact .refl _
  simp only [Option.bind_eq_bind, Option.bind_eq_some_iff] at h
  obtain ⟨s, h1, w1, h2, h3⟩ := h
  cases h3
  refine Mild.trans ?_ (releaseStatics_mild _ _)
  refine Mild.trans ?_ (islandSolve_mild h2)
  refine Mild.trans ?_ (search_mild h1)
  exact setPhys_mild (by intro _; rfl)

theorem solveIslands_mild {env : Env F} {w : World F} {step : TimeStep F} {x' : World F × List Island}
    (h : w.solveIslands env step = some x') : Mild w x'.1 := by
  unfold solveIslands at h
  exact foldlM_inv (fun x : World F × List Island => Mild w x.1) h (clearIslandFlags_mild w) (fun b _ x x' hx hv => hx.trans (solveSeed_mild hv))

/-! ### The relation for a step -/

/-- No contact between bodies joined by a joint that forbids collision. -/
def NoJoined (w : World F) : Prop := ∀ c ∈ w.g.contactList, ∀ j ∈ w.g.jointList, (w.g.joints j).collideConnected = false →
  ¬ w.g.joins c (w.g.joints j).a (w.g.joints j).b

structure Good (env : Env F) (w w' : World F) : Prop where
  winv : WInv w'
  tr : Tr env w w'
  body : ∀ b, w'.g.bodies b = { w.g.bodies b with contacts := (w'.g.bodies b).contacts }
  eq : w'.g = { w.g with bodies := w'.g.bodies, contacts := w'.g.contacts, contactList := w'.g.contactList,
                         contactCount := w'.g.contactCount, nextContact := w'.g.nextContact }
  rest : Rest w w'
  log : ∃ ev, w'.log = ev ++ w.log ∧ ∀ e ∈ ev, e.locked = w.locked
  unjoined : NoJoined w → NoJoined w'

namespace Good
variable {env : Env F} {w w' w'' : World F}
theorem refl (h : WInv w) : Good env w w := ⟨h, .refl _ _, fun _ => rfl, rfl, .refl _, ⟨[], rfl, by simp⟩, id⟩
theorem trans (h : Good env w w') (h' : Good env w' w'') : Good env w w'' := by
  refine ⟨h'.winv, h.tr.trans h'.tr, fun b => ?_, by rw [h'.eq, h.eq], h.rest.trans h'.rest, ?_, h'.unjoined ∘ h.unjoined⟩
  · have e := h'.body b
    rw [h.body b] at e
    exact e
  · obtain ⟨e1, a1, a2⟩ := h.log
    obtain ⟨e2, b1, b2⟩ := h'.log
    refine ⟨e2 ++ e1, by rw [b1, a1, List.append_assoc], fun e he => ?_⟩
    rcases List.mem_append.mp he with he | he
    · rw [b2 e he, h.rest.locked]
    · exact a2 e he
theorem frame (h : WInv w) (hf : WFrame w w') (ht : Tr env w w') (hl : ∃ ev, w'.log = ev ++ w.log ∧ ∀ e ∈ ev, e.locked = w.locked) : Good env w w' :=
  ⟨h.frame hf.g hf.bp, ht, fun b => by rw [hf.g], by rw [hf.g], hf.rest, hl, by unfold NoJoined; rw [hf.g]; exact id⟩
theorem mild (h : WInv w) (hm : Mild w w') : Good env w w' := by
  obtain ⟨ev, e1, e2⟩ := hm.log
  exact frame h hm.toWFrame hm.tr ⟨ev, e1, fun e he => (e2 e he).2⟩
theorem bpf {N : Nat × Nat → AABB F → Prop} (h : WInv w) (hf : BpFrame N w w') (hp : PInv w') : Good env w w' :=
  ⟨h.bpFrame hf hp, hf.tr, fun b => by rw [hf.g], by rw [hf.g], hf.rest, ⟨[], hf.log, by simp⟩, by unfold NoJoined; rw [hf.g]; exact id⟩
theorem type (h : Good env w w') (b : Nat) : w'.typeOf b = w.typeOf b := by rw [World.typeOf, h.body b]; rfl
theorem fixtures (h : Good env w w') : w'.g.fixtures = w.g.fixtures := by rw [h.eq]
theorem bodyList (h : Good env w w') : w'.g.bodyList = w.g.bodyList := by rw [h.eq]
theorem jointList (h : Good env w w') : w'.g.jointList = w.g.jointList := by rw [h.eq]
theorem joints (h : Good env w w') : w'.g.joints = w.g.joints := by rw [h.eq]
end Good

theorem findNewContacts_good {env : Env F} {w w' : World F} (h : WInv w) (e : w.findNewContacts env = some w') : Good env w w' := by
  obtain ⟨w1, x1, e1, hw⟩ := findNewContacts_spec h e
  have hg : w'.g = w1.g := by rw [e1]
  have hc : w'.cst = w1.cst := by rw [e1]
  have hl : w'.log = w1.log := by rw [e1]
  have ht : Tr env w1 w' := by
    refine ⟨fun hs b hb ht => ?_, fun hf => hf.congr (by rw [hg]; exact fun _ h => h) (by rw [hg]; exact fun _ h => h) (by rw [hg]) (by rw [hg]) (fun f => by rw [hg])
      (fun c => by rw [hc]; exact id), fun he => he.congr (ev := []) (by rw [hg]) (fun c _ => by rw [hc]) hl (by simp)⟩
    have hp : w'.phys = w1.phys := by rw [e1]
    rw [hp]
    rw [hg] at hb
    rw [typeOf, hg] at ht
    exact hs b hb ht
  refine ⟨hw, (x1.tr h.link).trans ht, fun b => by rw [hg]; exact x1.body b, by rw [hg]; exact x1.eq, x1.rest.trans ⟨by rw [e1]⟩, ?_, ?_⟩
  · obtain ⟨ev, a1, a2⟩ := x1.log
    refine ⟨ev, by rw [hl, a1], fun e he => ?_⟩
    obtain ⟨fA, fB, rfl⟩ := a2 e he
    rfl
  · intro hn c hc j hj hcc hjo
    rw [hg] at hc hj hcc hjo
    have hjl : w1.g.jointList = w.g.jointList := by rw [x1.eq]
    have hjs : w1.g.joints = w.g.joints := by rw [x1.eq]
    rw [hjl] at hj
    rw [hjs] at hcc hjo
    by_cases hlt : c < w.g.nextContact
    · obtain ⟨a1, -, a3⟩ := x1.old c hlt
      refine hn c (a3.mp hc) j hj hcc ?_
      rw [← Graph.joins_congr (g := w.g) (g' := w1.g) a1 (fun f => by rw [x1.fixtures])]
      exact hjo
    · have := x1.unjoined c hc (by omega) _ _ hjo j hj (Or.inl ⟨rfl, rfl⟩)
      rw [hcc] at this
      cases this

theorem contactUpdate_good {env : Env F} {w w' : World F} {c : Nat} (h : WInv w) (hc : c ∈ w.g.contactList) (e : w.contactUpdate env c = some w') : Good env w w' := by
  obtain ⟨f, cm, ht, hlog⟩ := contactUpdate_spec e
  refine .frame h f (contactUpdate_tr hc e) ⟨_, hlog, ?_⟩
  intro e he
  unfold updateEvents at he
  split at he
  · simp only [List.mem_append] at he
    rcases he with (he | he) | he <;> (split at he <;> simp at he <;> subst he <;> rfl)
  · simp at he

theorem syncBodies_good {env : Env F} {w w' : World F} {l : List Nat} (h : WInv w)
    (e : l.foldlM (fun w b =>
    if (w.phys b).island = false then some w
    else if w.typeOf b = .static then some w
    else w.synchronizeFixtures b) w = some w') : Good env w w' := by
  refine foldlM_inv (fun x : World F => Good env w x) e (.refl h) ?_
  intro b _ x x' hx hv
  split at hv
  · cases hv; exact hx
  split at hv
  · cases hv; exact hx
  obtain ⟨w2, k1, k2, k3⟩ := synchronizeFixtures_spec b hx.winv.pinv
  rw [k1] at hv
  cases hv
  exact hx.trans (.bpf hx.winv k2 k3)

theorem solve_good {env : Env F} {w w' : World F} {step : TimeStep F} (h : WInv w) (e : w.solve env step = some w') : Good env w w' := by
  unfold solve at e
  simp only [Option.bind_eq_bind, Option.bind_eq_some_iff] at e
  obtain ⟨⟨w1, isl⟩, e1, w2, e2, e3⟩ := e
  have m1 := solveIslands_mild e1
  have g1 : Good env w w1 := .mild h m1
  have g2 := syncBodies_good (env := env) g1.winv e2
  exact (g1.trans g2).trans (findNewContacts_good g2.winv e3)

/-! ### The contact manager's `collide` -/

theorem contactDestroy_good {env : Env F} {w w' : World F} {c : Nat} (h : WInv w) (hc : c ∈ w.g.contactList) (e : w.contactDestroy env c = some w') :
    Good env w w' := by
  have cut := contactDestroy_cut h.link hc e
  have hs := cut.shrunk
  refine ⟨cut.winv h, contactDestroy_tr h.link hc e, hs.body, ?_, cut.rest, ⟨_, cut.log, ?_⟩, ?_⟩
  · have := hs.eq
    rw [this]
  · intro e he
    unfold endEvent at he
    split at he
    · simp only [List.mem_singleton] at he; subst he; rfl
    · simp at he
  · intro hn x hx j hj hcc hjo
    rw [hs.jointList] at hj
    rw [hs.joints] at hcc hjo
    exact hn x ((hs.mem x).mp hx).1 j hj hcc (hs.joins.mp hjo)

theorem collideActive_good {env : Env F} {w w' : World F} {c bA bB : Nat} {k : Bool} (h : WInv w) (hc : c ∈ w.g.contactList)
    (e : w.collideActive env c bA bB = some (w', k)) : Good env w w' ∧ WFrame w w' ∧ Calm0 w w' := by
  unfold collideActive at e
  dsimp only at e
  split at e
  · cases e; exact ⟨.refl h, .refl _, .refl _⟩
  simp only [Option.bind_eq_bind, Option.bind_eq_some_iff] at e
  obtain ⟨pA, -, idA, -, pB, -, idB, -, ov, -, e⟩ := e
  split at e
  · cases e; exact ⟨.refl h, .refl _, .refl _⟩
  simp only [Option.bind_eq_some_iff] at e
  obtain ⟨w1, e1, e2⟩ := e
  cases e2
  obtain ⟨f, cm, -, -⟩ := contactUpdate_spec e1
  exact ⟨contactUpdate_good h hc e1, f, cm⟩

theorem filterCollide_good {env : Env F} {w : World F} (h : WInv w) (fA fB : Nat) : Good env w (w.filterCollide env fA fB).2 := by
  have q := filterCollide_quiet env w fA fB
  have l := filterCollide_log env w fA fB
  refine .frame h q.toWFrame (.quiet q (ev := if env.filter.isSome then [⟨.filter fA fB, w.locked⟩] else []) ?_ ?_) ⟨if env.filter.isSome then [⟨.filter fA fB, w.locked⟩] else [], ?_, ?_⟩
  · rw [l]; split <;> rfl
  · intro e he
    split at he
    · simp only [List.mem_singleton] at he; subst he; exact trivial
    · simp at he
  · rw [l]; split <;> rfl
  · intro e he
    split at he
    · simp only [List.mem_singleton] at he; subst he; rfl
    · simp at he

/-- A contact that is kept is not between joined bodies if its filter flag was set. The filter flag is only cleared then. -/
theorem collideOne_good {env : Env F} {w w' : World F} {c : Nat} {k : Bool} (h : WInv w) (hc : c ∈ w.g.contactList)
    (e : w.collideOne env c = some (w', k)) : WInv w' ∧ WFrame w w' ∧ (StaticInv w → StaticInv w') ∧ (EvInv env w → EvInv env w') ∧
    (∃ ev, w'.log = ev ++ w.log ∧ ∀ e ∈ ev, e.locked = w.locked) ∧
    (∀ x, x ≠ c → (w'.cst x).filter = (w.cst x).filter) ∧
    (k = true → (w.cst c).filter = true → ∀ a b, w.g.joins c a b → ∀ j ∈ w.g.jointList, w.g.jjoins j a b → (w.g.joints j).collideConnected = true) := by
  unfold collideOne at e
  simp only [Option.bind_eq_bind, Option.bind_eq_some_iff] at e
  obtain ⟨bA, hA, bB, hB, e⟩ := e
  split at e
  · rename_i hfl
    split at e
    · cases e
      exact ⟨h, .refl _, id, id, ⟨[], rfl, by simp⟩, fun _ _ => rfl, fun hk => by cases hk⟩
    rename_i hsc
    have g1 := filterCollide_good (env := env) h (w.g.contacts c).fA (w.g.contacts c).fB
    have q := filterCollide_quiet env w (w.g.contacts c).fA (w.g.contacts c).fB
    generalize hr : w.filterCollide env (w.g.contacts c).fA (w.g.contacts c).fB = r at e g1 q
    split at e
    · cases e
      exact ⟨g1.winv, q.toWFrame, g1.tr.static, g1.tr.ev, g1.log, fun x _ => q.toCalm0.filter x, fun hk => by cases hk⟩
    set w2 := r.2.setCst c { r.2.cst c with filter := false } with hw2
    have winv2 : WInv w2 := g1.winv.frame rfl rfl
    have hc2 : c ∈ w2.g.contactList := by show c ∈ r.2.g.contactList; rw [q.g]; exact hc
    obtain ⟨g3, f3, cm3⟩ := collideActive_good (env := env) winv2 hc2 e
    have ht2 : ∀ x, (w2.cst x).touching = (r.2.cst x).touching := fun x => proj_upd (f := r.2.cst) (a := c) (fun s : CState F => s.touching) (by rfl) x
    refine ⟨g3.winv, (q.toWFrame.trans ⟨rfl⟩).trans f3, fun hs => g3.tr.static ?_, fun he => g3.tr.ev ?_, ?_, fun x hx => ?_, fun _ _ a b hj j hjm hjj => ?_⟩
    · exact (g1.tr.static hs).calm rfl ⟨fun _ => rfl, rfl, fun _ => rfl, fun _ => rfl, fun _ => rfl, fun _ => rfl, fun _ _ => rfl⟩ |> fun (h : StaticInv r.2) => h
    · exact (g1.tr.ev he).congr (ev := []) rfl (fun x _ => ht2 x) rfl (by simp)
    · obtain ⟨e1, a1, a2⟩ := g1.log
      obtain ⟨e2, b1, b2⟩ := g3.log
      have hlk : w2.locked = w.locked := q.locked
      refine ⟨e2 ++ e1, ?_, fun e he => ?_⟩
      · rw [b1, List.append_assoc, ← a1]; rfl
      · rcases List.mem_append.mp he with he | he
        · rw [b2 e he, hlk]
        · exact a2 e he
    · rw [cm3.filter]
      have : w2.cst x = r.2.cst x := upd_other _ _ hx
      rw [this]
      exact q.toCalm0.filter x
    · have := shouldCollide_joints h.joint hsc j hjm
      have hA' : (w.g.fixtures (w.g.contacts c).fA).body = some bA := hA
      have hB' : (w.g.fixtures (w.g.contacts c).fB).body = some bB := hB
      refine this ?_
      unfold Graph.joins at hj
      unfold Graph.jjoins at hjj ⊢
      rw [hA', hB'] at hj
      rcases hj with ⟨k1, k2⟩ | ⟨k1, k2⟩ <;> cases k1 <;> cases k2 <;> tauto
  · rename_i hfl
    obtain ⟨g3, f3, cm3⟩ := collideActive_good (env := env) h hc e
    exact ⟨g3.winv, f3, g3.tr.static, g3.tr.ev, g3.log, fun x _ => cm3.filter x, fun _ hk => absurd hk hfl⟩

end World
end
end B2
