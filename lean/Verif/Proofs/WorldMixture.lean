import Verif.Spec.Mixture
import Verif.Proofs.WorldPhys

/-! What a step does to the coefficients of contacts: nothing; new contacts get mixed ones. -/
namespace B2
set_option linter.unusedSectionVars false
open World Spec

section
variable {F : Type} [Field F] [LinearOrder F] [IsStrictOrderedRing F] [Elem F] {env : Env F}

def CState.coefs (s : CState F) : F × F × F × F := (s.friction, s.restitution, s.restitutionThreshold, s.tangentSpeed)
def FAttr.coefs (s : FAttr F) : F × F × F := (s.friction, s.restitution, s.restitutionThreshold)

structure Mats (w w' : World F) : Prop where
  next : w.g.nextContact ≤ w'.g.nextContact
  ends : ∀ c < w.g.nextContact, w'.g.contacts c = w.g.contacts c
  old : ∀ c ∈ w'.g.contactList, c < w.g.nextContact → c ∈ w.g.contactList
  coef : ∀ f, (w'.fattr f).coefs = (w.fattr f).coefs
  keep : ∀ c < w.g.nextContact, (w'.cst c).coefs = (w.cst c).coefs
  new : ∀ c, w.g.nextContact ≤ c → c < w'.g.nextContact → (w'.cst c).coefs = (w'.newCst (w'.g.contacts c)).coefs

theorem newCst_coefs {w w' : World F} (h : ∀ f, (w'.fattr f).coefs = (w.fattr f).coefs) (k : ConS) : (w'.newCst k).coefs = (w.newCst k).coefs := by
  have a := h k.fA
  have b := h k.fB
  unfold FAttr.coefs at a b
  simp only [Prod.mk.injEq] at a b
  unfold newCst CState.coefs
  dsimp only
  rw [a.1, a.2.1, a.2.2, b.1, b.2.1, b.2.2]

namespace Mats
variable {w w' v : World F}
theorem easy (hn : w'.g.nextContact = w.g.nextContact := by rfl) (hk : w'.g.contacts = w.g.contacts := by rfl) (hl : ∀ c ∈ w'.g.contactList, c ∈ w.g.contactList := by exact fun _ => id)
    (hf : ∀ f, (w'.fattr f).coefs = (w.fattr f).coefs := by first | exact fun _ => rfl | exact proj_upd FAttr.coefs rfl)
    (hs : ∀ c, (w'.cst c).coefs = (w.cst c).coefs := by
      first | exact fun _ => rfl | exact proj_upd CState.coefs (by rfl) | (intro x; dsimp only [World.setCst, World.setAwake, World.setPhys, World.restore]; repeat' first | rfl | refine (proj_upd CState.coefs ?_ _).trans ?_)) : Mats w w' :=
  ⟨hn.ge, fun c _ => by rw [hk], fun c hc _ => hl c hc, hf, fun c _ => hs c, fun c h1 h2 => by omega⟩
theorem refl (w : World F) : Mats w w := easy
theorem trans (h : Mats w v) (h' : Mats v w') : Mats w w' := by
  refine ⟨h.next.trans h'.next, fun c hc => (h'.ends c (hc.trans_le h.next)).trans (h.ends c hc), fun c hc hn => h.old c (h'.old c hc (hn.trans_le h.next)) hn,
    fun f => (h'.coef f).trans (h.coef f), fun c hc => (h'.keep c (hc.trans_le h.next)).trans (h.keep c hc), fun c h1 h2 => ?_⟩
  by_cases hv : c < v.g.nextContact
  · rw [h'.keep c hv, h'.ends c hv, h.new c h1 hv, newCst_coefs h'.coef]
  · exact h'.new c (not_lt.mp hv) h2
theorem foldlM {α : Type} {f : World F → α → Option (World F)} {l : List α}
    (e : l.foldlM f w = some w') (hf : ∀ v v', ∀ x ∈ l, f v x = some v' → Mats v v') : Mats w w' :=
  foldlM_inv (fun x => Mats w x) e (.refl w) (fun x hx v v' h h' => h.trans (hf v v' x hx h'))
theorem foldl {α : Type} {f : World F → α → World F} {l : List α} (w : World F)
    (hf : ∀ v, ∀ x ∈ l, Mats v (f v x)) : Mats w (l.foldl f w) :=
  foldl_inv (fun x => Mats w x) (.refl w) (fun x hx v h => h.trans (hf v x hx))
end Mats

/-! ### Callbacks and contacts -/

theorem userOp_mats {w w' : World F} {op : UserOp F} (ho : SetsNone op) (e : w.userOp op = some w') : Mats w w' := by
  cases op with
  | body b o =>
    unfold userOp bodyOp at e
    simp only [Option.bind_eq_bind, Option.bind_eq_some_iff] at e
    obtain ⟨p, -, e⟩ := e
    cases e
    exact .easy
  | fixtureSetSensor f flag =>
    unfold userOp setSensor at e
    dsimp only at e
    split at e
    · simp only [Option.bind_eq_bind, Option.bind_eq_some_iff] at e
      obtain ⟨b, -, e⟩ := e
      cases e
      exact .easy
    · cases e; exact .refl _
  | fixtureSetDensity f x =>
    unfold userOp at e
    dsimp only at e
    split at e
    · cases e; exact .easy
    · cases e
  | contactSetEnabled c flag => cases e; exact .easy
  | contactSetManifold c m => cases e; exact .easy
  | _ => exact absurd ho id

theorem emit_mats (hE : Muted env) {w w' : World F} {k : EventKind} (e : w.emit env k = some w') : Mats w w' := by
  unfold emit at e
  dsimp only at e
  refine Mats.trans (v := { w with log := ⟨k, w.locked⟩ :: w.log, tick := w.tick + 1 }) .easy ?_
  exact Mats.foldlM e (fun v v' op ho he => userOp_mats (hE _ _ op ho) he)

theorem listen_mats (hE : Muted env) {w w' : World F} {k : EventKind} (e : w.listen env k = some w') : Mats w w' := by
  unfold listen at e
  split at e
  · exact emit_mats hE e
  · cases e; exact .refl _

theorem listenIf_mats (hE : Muted env) {w w' : World F} {k : EventKind} {c : Prop} [Decidable c]
    (e : (if c then w.listen env k else some w) = some w') : Mats w w' := by
  split at e
  · exact listen_mats hE e
  · cases e; exact .refl _

theorem filterCollide_mats (w : World F) (fA fB : Nat) : Mats w (w.filterCollide env fA fB).2 := by
  unfold filterCollide
  split <;> exact .easy

theorem insertContact_mats {w w' : World F} {k : ConS} (e : w.insertContact k = some w') : Mats w w' := by
  unfold insertContact at e
  simp only [Option.bind_eq_bind, Option.bind_eq_some_iff] at e
  obtain ⟨_, -, _, -, e⟩ := e
  cases e
  refine ⟨Nat.le_succ _, fun c hc => upd_other _ _ hc.ne, fun c hc hn => ?_, fun _ => rfl, fun c hc => ?_, fun c h1 h2 => ?_⟩
  · rcases List.mem_cons.mp hc with rfl | hc
    · exact absurd hn (lt_irrefl _)
    · exact hc
  · exact congrArg CState.coefs (upd_other _ _ hc.ne)
  · have : c = w.g.nextContact := by
      have : c < w.g.nextContact + 1 := h2
      omega
    subst this
    refine (congrArg CState.coefs (upd_same _ _ _)).trans ?_
    exact congrArg (fun k => (w.newCst k).coefs) (upd_same _ _ _).symm

theorem addPair_mats {w w' : World F} {pa pb : Option (Nat × Nat)} (e : w.addPair env pa pb = some w') : Mats w w' := by
  unfold addPair at e
  simp only [Option.bind_eq_bind, Option.bind_eq_some_iff] at e
  obtain ⟨_, -, _, -, _, -, _, -, _, -, _, -, _, -, _, -, e⟩ := e
  split at e
  · cases e; exact .refl _
  split at e
  · cases e; exact .refl _
  split at e
  · cases e; exact .refl _
  split at e
  · cases e; exact filterCollide_mats _ _ _
  simp only [Option.bind_eq_some_iff] at e
  obtain ⟨k, -, e⟩ := e
  exact (filterCollide_mats _ _ _).trans (insertContact_mats e)

theorem findNewContacts_mats {w w' : World F} (e : w.findNewContacts env = some w') : Mats w w' := by
  unfold findNewContacts BroadPhase.updatePairs BroadPhase.sendPairs at e
  simp only [Option.bind_eq_bind, Option.bind_eq_some_iff] at e
  obtain ⟨⟨bp, r⟩, ⟨pairs, -, r', e1, tree, -, e2⟩, w1, e3, e4⟩ := e
  cases e2
  cases e4
  have := foldlM_inv (fun r : Option (World F) => ∀ v, r = some v → Mats w v) e1 (fun v hv => by cases hv; exact .refl _) (by
    intro i _ c c' hc h v hv
    simp only [Option.bind_eq_some_iff] at h
    obtain ⟨p, -, a, -, b, -, h⟩ := h
    cases h
    rw [Option.bind_eq_some_iff] at hv
    obtain ⟨u, hu, hv⟩ := hv
    exact (hc u hu).trans (addPair_mats hv))
  exact (this w1 e3).trans .easy

theorem synchronizeFixtures_mats {w w' : World F} {b : Nat} (e : w.synchronizeFixtures b = some w') : Mats w w' := by
  have one : ∀ (xf1 xf2 : Xf F) (l : List Nat) (w' : World F), l.foldlM (synchronize xf1 xf2) w = some w' → Mats w w' := by
    intro xf1 xf2 l w' e
    refine Mats.foldlM e (fun v v' f _ h' => ?_)
    unfold synchronize at h'
    refine Mats.foldlM h' (fun u u' i _ h' => ?_)
    unfold synchronizeProxy at h'
    simp only [Option.bind_eq_bind, Option.bind_eq_some_iff] at h'
    obtain ⟨_, -, _, -, _, -, _, -, _, -, h'⟩ := h'
    cases h'
    exact .easy
  unfold synchronizeFixtures at e
  dsimp only at e
  split at e
  · exact one _ _ _ _ e
  · exact one _ _ _ _ e

theorem contactDestroy_mats (hE : Muted env) {w w' : World F} {c : Nat} (e : w.contactDestroy env c = some w') : Mats w w' := by
  unfold contactDestroy at e
  simp only [Option.bind_eq_bind, Option.bind_eq_some_iff] at e
  obtain ⟨bA, -, bB, -, w1, e1, w2, e2, e3⟩ := e
  have h2 : Mats w1 w2 := by
    unfold unlink at e2
    simp only [Option.bind_eq_bind, Option.bind_eq_some_iff] at e2
    obtain ⟨cl, hcl, la, -, lb, -, e2⟩ := e2
    split at e2
    · cases e2
    · cases e2
      refine .easy (hl := fun c hc => ?_)
      unfold removeOne at hcl
      split at hcl
      · cases hcl; exact List.mem_of_mem_erase hc
      · cases hcl
  cases e3
  refine Mats.trans (Mats.trans (listenIf_mats hE e1) h2) ?_
  unfold wakeOnDestroy
  split
  · exact Mats.trans (Mats.easy) (Mats.easy)
  · exact Mats.refl _

theorem refresh_mats {w w' : World F} {c : Nat} (e : w.refresh env c = some w') : Mats w w' := by
  unfold refresh at e
  simp only [Option.bind_eq_bind, Option.bind_eq_some_iff] at e
  obtain ⟨bA, -, bB, -, e⟩ := e
  split at e
  · rw [Option.bind_eq_some_iff] at e
    obtain ⟨t, -, e⟩ := e
    cases e; exact Mats.easy
  · rw [Option.bind_eq_some_iff] at e
    obtain ⟨m, -, e⟩ := e
    cases e
    split
    · exact Mats.trans (Mats.trans (Mats.easy) (Mats.easy)) (Mats.trans (Mats.easy) (Mats.easy))
    · exact Mats.easy

theorem contactUpdate_mats (hE : Muted env) {w w' : World F} {c : Nat} (e : w.contactUpdate env c = some w') : Mats w w' := by
  unfold contactUpdate at e
  simp only [Option.bind_eq_bind, Option.bind_eq_some_iff] at e
  obtain ⟨w1, e1, w2, e2, w3, e3, e4⟩ := e
  exact Mats.trans (Mats.trans (refresh_mats e1) (listenIf_mats hE e2)) (Mats.trans (listenIf_mats hE e3) (listenIf_mats hE e4))

theorem collideActive_mats (hE : Muted env) {w w' : World F} {c bA bB : Nat} {r : Bool}
    (e : w.collideActive env c bA bB = some (w', r)) : Mats w w' := by
  unfold collideActive at e
  dsimp only at e
  split at e
  · cases e; exact Mats.refl _
  simp only [Option.bind_eq_bind, Option.bind_eq_some_iff] at e
  obtain ⟨_, -, _, -, _, -, _, -, _, -, e⟩ := e
  split at e
  · cases e; exact Mats.refl _
  simp only [Option.bind_eq_some_iff] at e
  obtain ⟨w1, e1, e2⟩ := e
  cases e2
  exact contactUpdate_mats hE e1

theorem collideOne_mats (hE : Muted env) {w w' : World F} {c : Nat} {r : Bool}
    (e : w.collideOne env c = some (w', r)) : Mats w w' := by
  unfold collideOne at e
  simp only [Option.bind_eq_bind, Option.bind_eq_some_iff] at e
  obtain ⟨bA, -, bB, -, e⟩ := e
  split at e
  · split at e
    · cases e; exact Mats.refl _
    · split at e
      · cases e; exact filterCollide_mats _ _ _
      · exact Mats.trans (Mats.trans (filterCollide_mats (env := env) w _ _) (Mats.easy (w' := ((w.filterCollide env _ _).2.setCst _ _)))) (collideActive_mats hE e)
  · exact collideActive_mats hE e

theorem collideLoop_mats (hE : Muted env) : ∀ (l : List Nat) {w w' : World F} {ds ds' : List Nat},
    collideLoop env l w ds = some (w', ds') → Mats w w' := by
  intro l
  induction l with
  | nil => intro w w' ds ds' e; cases e; exact Mats.refl _
  | cons c l ih =>
    intro w w' ds ds' e
    unfold collideLoop at e
    simp only [Option.bind_eq_bind, Option.bind_eq_some_iff] at e
    obtain ⟨⟨w1, k⟩, e1, e2⟩ := e
    exact Mats.trans (collideOne_mats hE e1) (ih e2)

theorem collide_mats (hE : Muted env) {w w' : World F} (e : w.collide env = some w') : Mats w w' := by
  unfold collide at e
  simp only [Option.bind_eq_bind, Option.bind_eq_some_iff] at e
  obtain ⟨⟨w1, ds⟩, e1, e2⟩ := e
  exact Mats.trans (collideLoop_mats hE _ e1) (Mats.foldlM e2 (fun v v' x _ he => contactDestroy_mats hE he))

theorem clearIslandFlags_mats (w : World F) : Mats w w.clearIslandFlags := by
  unfold clearIslandFlags
  dsimp only
  refine Mats.trans ?_ (Mats.foldl _ (fun v j _ => Mats.easy))
  refine Mats.trans ?_ (Mats.foldl _ (fun v j _ => Mats.easy))
  exact Mats.foldl _ (fun v j _ => Mats.easy)

theorem pushBody_mats {b o : Nat} {s s' : Search F} (h : pushBody b s o = some s') : Mats s.w s'.w := by
  unfold pushBody at h
  split at h
  · cases h; exact Mats.refl _
  · split at h
    · cases h
    · cases h; exact Mats.easy

theorem visitContact_mats {b : Nat} {s s' : Search F} {e : Nat × Nat} (h : visitContact b s e = some s') : Mats s.w s'.w := by
  unfold visitContact at h
  dsimp only at h
  split at h
  · cases h; exact Mats.refl _
  split at h
  · cases h; exact Mats.refl _
  split at h
  · cases h; exact Mats.refl _
  have m := pushBody_mats h
  exact Mats.trans (Mats.easy) m

theorem visitJoint_mats {b : Nat} {s s' : Search F} {e : Nat × Nat} (h : visitJoint b s e = some s') : Mats s.w s'.w := by
  unfold visitJoint at h
  split at h
  · cases h; exact Mats.refl _
  split at h
  · cases h; exact Mats.refl _
  have m := pushBody_mats h
  exact Mats.trans (Mats.easy) m

theorem visitBody_mats {b : Nat} {s s' : Search F} (h : visitBody s b = some s') : Mats s.w s'.w := by
  unfold visitBody at h
  split at h
  · cases h
  dsimp only at h
  set w1 := s.w.setPhys b { s.w.phys b with islandIndex := s.island.bodies.length } with hw1
  have m1 : Mats s.w w1 := Mats.easy
  split at h
  · cases h; exact m1
  have m2 : Mats w1 (w1.setPhys b { w1.phys b with awake := true }) := Mats.easy
  simp only [Option.bind_eq_bind, Option.bind_eq_some_iff] at h
  obtain ⟨s1, h1, h2⟩ := h
  refine Mats.trans (Mats.trans m1 m2) (Mats.trans (v := s1.w) ?_ ?_)
  · exact foldlM_inv (fun x : Search F => Mats _ x.w) h1 (Mats.refl _) (fun e _ x x' hx hv => Mats.trans hx (visitContact_mats hv))
  · exact foldlM_inv (fun x : Search F => Mats _ x.w) h2 (Mats.refl _) (fun e _ x x' hx hv => Mats.trans hx (visitJoint_mats hv))

theorem search_mats : ∀ {n : Nat} {s s' : Search F}, search n s = some s' → Mats s.w s'.w := by
  intro n
  induction n with
  | zero => intro s s' h; cases h
  | succ n ih =>
    intro s s' h
    unfold search at h
    split at h
    · cases h; exact Mats.refl _
    · rename_i b st hst
      simp only [Option.bind_eq_bind, Option.bind_eq_some_iff] at h
      obtain ⟨s1, h1, h2⟩ := h
      have m := visitBody_mats h1
      exact Mats.trans m (ih h2)

theorem writeBack_mats (w : World F) (bodies : List Nat) (states : List (BState F)) : Mats w (w.writeBack bodies states) := by
  unfold writeBack
  exact Mats.foldl _ (fun _ _ _ => Mats.easy)

theorem report_mats (hE : Muted env) {w w' : World F} {l : List Nat} (h : w.report env l = some w') : Mats w w' :=
  Mats.foldlM h (fun _ _ _ _ he => listen_mats hE he)

theorem sleepTimers_mats (h : F) : ∀ (l : List Nat) (w : World F) (m : F), Mats w (sleepTimers h l w m).1 := by
  intro l
  induction l with
  | nil => intro w m; exact Mats.refl _
  | cons b l ih =>
    intro w m
    unfold sleepTimers
    split
    · exact ih _ _
    · dsimp only
      split
      · exact Mats.trans (Mats.easy) (ih _ _)
      · exact Mats.trans (Mats.easy) (ih _ _)

theorem sleepIsland_mats (w : World F) (h : F) (l : List Nat) (ok : Bool) : Mats w (w.sleepIsland h l ok) := by
  unfold sleepIsland
  dsimp only
  have h0 := sleepTimers_mats h l w maxFlt
  split
  · exact h0.trans (Mats.foldl _ (fun _ _ _ => .easy))
  · exact h0

theorem islandSolve_mats (hE : Muted env) {w w' : World F} {cap : Nat} {isl : Island} {step : TimeStep F}
    (e : w.islandSolve env cap isl step = some w') : Mats w w' := by
  obtain ⟨v, r, h1, rfl⟩ := islandSolve_inv e
  have h0 : Mats w v := by
    unfold islandMove at h1
    split at h1
    · cases h1
    simp only [Option.bind_eq_bind, Option.bind_eq_some_iff] at h1
    obtain ⟨w1, h1, h2⟩ := h1
    cases h2
    refine Mats.trans ?_ (report_mats hE h1)
    refine Mats.trans ?_ (writeBack_mats _ _ _)
    refine Mats.trans ?_ (Mats.foldl _ (fun v j _ => Mats.easy))
    exact Mats.foldl _ (fun v j _ => Mats.easy)
  split
  · exact h0.trans (sleepIsland_mats _ _ _ _)
  · exact h0

theorem releaseStatics_mats (w : World F) (l : List Nat) : Mats w (w.releaseStatics l) := by
  refine Mats.foldl _ (fun v b _ => ?_)
  split
  · exact Mats.easy
  · exact Mats.refl _

theorem solveSeed_mats (hE : Muted env) {step : TimeStep F} {x x' : World F × List Island} {seed : Nat}
    (h : solveSeed env step x seed = some x') : Mats x.1 x'.1 := by
  unfold solveSeed at h
  split at h
  · cases h; exact Mats.refl _
  simp only [Option.bind_eq_bind, Option.bind_eq_some_iff] at h
  obtain ⟨s, h1, w1, h2, h3⟩ := h
  cases h3
  refine Mats.trans ?_ (releaseStatics_mats _ _)
  refine Mats.trans ?_ (islandSolve_mats hE h2)
  exact Mats.trans (Mats.easy) (search_mats h1)

theorem solve_mats (hE : Muted env) {w w' : World F} {step : TimeStep F}
    (e : w.solve env step = some w') : Mats w w' := by
  unfold solve at e
  simp only [Option.bind_eq_bind, Option.bind_eq_some_iff] at e
  obtain ⟨⟨w1, isl⟩, e1, w2, e2, e3⟩ := e
  refine Mats.trans (v := w1) ?_ (Mats.trans (v := w2) ?_ (findNewContacts_mats e3))
  · unfold solveIslands at e1
    exact foldlM_inv (fun x : World F × List Island => Mats w x.1) e1 (clearIslandFlags_mats w) (fun b _ x x' hx hv => hx.trans (solveSeed_mats hE hv))
  · refine Mats.foldlM e2 (fun v v' b _ hv => ?_)
    split at hv
    · cases hv; exact Mats.refl _
    split at hv
    · cases hv; exact Mats.refl _
    exact synchronizeFixtures_mats hv

theorem toiReset_mats (w : World F) : Mats w w.toiReset := by
  unfold toiReset
  split
  · refine Mats.trans ?_ (Mats.foldl _ (fun v j _ => Mats.easy))
    exact Mats.foldl _ (fun v j _ => Mats.easy)
  · exact Mats.refl _

theorem alignSweeps_mats {w w' : World F} {bA bB : Nat} {a : F} (e : w.alignSweeps bA bB = some (w', a)) : Mats w w' := by
  unfold alignSweeps at e
  dsimp only at e
  split at e
  · simp only [Option.bind_eq_bind, Option.bind_eq_some_iff] at e
    obtain ⟨s, es, e⟩ := e
    split at e
    · cases e; exact Mats.easy
    · cases e
  split at e
  · simp only [Option.bind_eq_bind, Option.bind_eq_some_iff] at e
    obtain ⟨s, es, e⟩ := e
    split at e
    · cases e; exact Mats.easy
    · cases e
  split at e
  · cases e; exact Mats.refl _
  · cases e

theorem toiOf_mats {w w' : World F} {c : Nat} {r : Option F} (e : w.toiOf env c = some (w', r)) : Mats w w' := by
  unfold toiOf at e
  dsimp only at e
  split at e
  · cases e; exact Mats.refl _
  split at e
  · cases e; exact Mats.refl _
  split at e
  · cases e; exact Mats.refl _
  split at e
  · cases e; exact Mats.refl _
  simp only [Option.bind_eq_bind, Option.bind_eq_some_iff] at e
  obtain ⟨bA, -, bB, -, e⟩ := e
  split at e
  · cases e
  split at e
  · cases e
  split at e
  · cases e; exact Mats.refl _
  split at e
  · cases e; exact Mats.refl _
  simp only [Option.bind_eq_some_iff] at e
  obtain ⟨⟨w1, a⟩, e1, r, -, e2⟩ := e
  cases e2
  exact Mats.trans (alignSweeps_mats e1) (Mats.easy)

theorem toiScan_mats : ∀ (l : List Nat) {w w' : World F} {b b' : Option Nat} {m m' : F},
    toiScan env l w b m = some (w', b', m') → Mats w w' := by
  intro l
  induction l with
  | nil => intro w w' b b' m m' e; cases e; exact Mats.refl _
  | cons c l ih =>
    intro w w' b b' m m' e
    unfold toiScan at e
    simp only [Option.bind_eq_bind, Option.bind_eq_some_iff] at e
    obtain ⟨⟨w1, a⟩, e1, e2⟩ := e
    refine Mats.trans (toiOf_mats e1) ?_
    dsimp only at e2
    split at e2
    · split at e2
      · exact ih e2
      · exact ih e2
    · exact ih e2

theorem advance_mats {w w' : World F} {b : Nat} {a : F} (e : w.advance b a = some w') : Mats w w' := by
  unfold World.advance Phys.advance at e
  simp only [Option.bind_eq_bind, Option.bind_eq_some_iff] at e
  obtain ⟨p, ⟨s, es, e1⟩, e2⟩ := e
  cases e1
  cases e2
  have h := advance_center es
  exact Mats.easy

theorem restore_mats {w : World F} {b : Nat} {s : Sweep F} : Mats w (w.restore b s) := .easy

theorem toiAddBody_mats (x : World F × Island) (b : Nat) : Mats x.1 (toiAddBody x b).1 := Mats.easy

theorem toiVisit_mats (hE : Muted env) {alpha : F} {body : Nat} {x x' : World F × Island} {e : Nat × Nat}
    (h : toiVisit env alpha body x e = some x') : Mats x.1 x'.1 := by
  unfold toiVisit at h
  dsimp only at h
  split at h
  · cases h; exact Mats.refl _
  split at h
  · cases h
  split at h
  · cases h; exact Mats.refl _
  split at h
  · cases h; exact Mats.refl _
  simp only [Option.bind_eq_bind, Option.bind_eq_some_iff] at h
  obtain ⟨w1, h1, w2, h2, h3⟩ := h
  have m2 : Mats x.1 w2 := by
    refine Mats.trans (v := w1) ?_ (contactUpdate_mats hE h2)
    split at h1
    · exact advance_mats h1
    · cases h1; exact Mats.refl _
  split at h3
  · cases h3
    exact Mats.trans m2 restore_mats
  · split at h3
    · cases h3; exact Mats.trans m2 (Mats.easy)
    · cases h3
      refine Mats.trans m2 (Mats.trans ?_ (toiAddBody_mats _ _))
      dsimp only
      split
      · exact Mats.trans (v := w2.setCst e.1 { w2.cst e.1 with island := true }) (Mats.easy) (Mats.easy)
      · exact Mats.easy

theorem toiVisits_mats (hE : Muted env) {alpha : F} {body : Nat} {x x' : World F × Island}
    (h : toiVisits env alpha x body = some x') : Mats x.1 x'.1 := by
  unfold toiVisits at h
  split at h
  · exact foldlM_inv (fun y : World F × Island => Mats x.1 y.1) h (Mats.refl _) (fun e _ y y' hy hv => Mats.trans hy (toiVisit_mats hE hv))
  · cases h; exact Mats.refl _

theorem islandSolveToi_mats (hE : Muted env) {w w' : World F} {cap : Nat} {isl : Island} {step : TimeStep F} {iA iB : Int}
    (e : w.islandSolveToi env cap isl step iA iB = some w') : Mats w w' := by
  unfold islandSolveToi at e
  split at e
  · cases e
  simp only [Option.bind_eq_bind, Option.bind_eq_some_iff] at e
  obtain ⟨bA, -, bB, -, e⟩ := e
  refine Mats.trans ?_ (report_mats hE e)
  refine Mats.trans ?_ (writeBack_mats _ _ _)
  exact Mats.trans (Mats.easy) (Mats.easy)

theorem toiRelease_mats {w w' : World F} {b : Nat} (e : w.toiRelease b = some w') : Mats w w' := by
  unfold toiRelease at e
  dsimp only at e
  split at e
  · cases e; exact Mats.easy
  simp only [Option.bind_eq_bind, Option.bind_eq_some_iff] at e
  obtain ⟨w1, e1, e2⟩ := e
  cases e2
  refine Mats.trans (v := w1) (Mats.trans (Mats.easy) (synchronizeFixtures_mats e1)) ?_
  exact Mats.foldl _ (fun v j _ => Mats.easy)

theorem toiSolid_mats (hE : Muted env) {step : TimeStep F} {w w' : World F} {c bA bB : Nat} {alpha : F}
    (e : w.toiSolid env step c bA bB alpha = some w') : Mats w w' := by
  unfold toiSolid at e
  simp only [Option.bind_eq_bind, Option.bind_eq_some_iff] at e
  obtain ⟨x2, e0, w3, e3, w4, e4, e5⟩ := e
  unfold toiIsland at e0
  simp only [Option.bind_eq_bind, Option.bind_eq_some_iff] at e0
  obtain ⟨x1, e1, e2⟩ := e0
  refine Mats.trans (v := w4) ?_ (findNewContacts_mats e5)
  refine Mats.trans (v := w3) ?_ (Mats.foldlM e4 (fun _ _ _ _ h => toiRelease_mats h))
  refine Mats.trans (v := x2.1) ?_ (islandSolveToi_mats hE e3)
  refine Mats.trans (v := x1.1) ?_ (toiVisits_mats hE e2)
  refine Mats.trans ?_ (toiVisits_mats hE e1)
  refine Mats.trans (v := (w.setAwake bA true).setAwake bB true) (Mats.trans (Mats.easy) (Mats.easy)) ?_
  refine Mats.trans (toiAddBody_mats ((w.setAwake bA true).setAwake bB true, ⟨[], [c], []⟩) bA) ?_
  exact Mats.trans (toiAddBody_mats (toiAddBody ((w.setAwake bA true).setAwake bB true, ⟨[], [c], []⟩) bA) bB) (Mats.easy)

theorem toiEvent_mats (hE : Muted env) {step : TimeStep F} {w w' : World F} {c : Nat} {alpha : F} {solid : Bool}
    (e : w.toiEvent env step c alpha = some (w', solid)) : Mats w w' := by
  unfold toiEvent at e
  simp only [Option.bind_eq_bind, Option.bind_eq_some_iff] at e
  obtain ⟨bA, -, bB, -, w1, e1, w2, e2, w3, e3, e4⟩ := e
  have m : Mats w w3 := ((advance_mats e1).trans (advance_mats e2)).trans (contactUpdate_mats hE e3)
  split at e4
  · cases e4
    exact m.trans (Mats.trans Mats.easy (restore_mats.trans restore_mats))
  · simp only [Option.bind_eq_some_iff] at e4
    obtain ⟨w4, e4, e5⟩ := e4
    cases e5
    have t := toiSolid_mats hE e4
    exact m.trans (Mats.trans (Mats.easy) t)

theorem toiLoop_mats (hE : Muted env) {step : TimeStep F} : ∀ (n : Nat) {w w' : World F},
    toiLoop env step n w = some w' → Mats w w' := by
  intro n
  induction n with
  | zero => intro w w' e; cases e
  | succ n ih =>
    intro w w' e
    unfold toiLoop at e
    simp only [Option.bind_eq_bind, Option.bind_eq_some_iff] at e
    obtain ⟨⟨w1, best, m⟩, e1, e2⟩ := e
    have m1 := toiScan_mats _ e1
    dsimp only at e2
    split at e2
    · cases e2; exact Mats.trans m1 (Mats.easy)
    split at e2
    · cases e2; exact Mats.trans m1 (Mats.easy)
    simp only [Option.bind_eq_some_iff] at e2
    obtain ⟨⟨w2, solid⟩, e2, e3⟩ := e2
    have m2 := Mats.trans m1 (toiEvent_mats hE e2)
    split at e3
    · cases e3; exact Mats.trans m2 (Mats.easy)
    · exact Mats.trans m2 (ih e3)

theorem stepBegin_mats {w w' : World F} (e : w.stepBegin env = some w') : Mats w w' := by
  unfold stepBegin at e
  split at e
  · simp only [Option.bind_eq_bind, Option.bind_eq_some_iff] at e
    obtain ⟨w1, e1, e2⟩ := e
    cases e2
    exact (findNewContacts_mats e1).trans .easy
  · cases e; exact .refl _

theorem step_mats (hE : Muted env) {w w' : World F} {dt : F} {vi pi : Nat} (e : w.step env dt vi pi = some w') : Mats w w' := by
  unfold step at e
  simp only [Option.bind_eq_bind, Option.bind_eq_some_iff] at e
  obtain ⟨w1, e1, w2, e2, e3⟩ := e
  unfold stepLocked at e2
  simp only [Option.bind_eq_bind, Option.bind_eq_some_iff] at e2
  obtain ⟨w3, e4, w4, e5, w5, e6, e7⟩ := e2
  have k1 : Mats w w3 := ((stepBegin_mats e1).trans (v := w1) (Mats.easy (w' := { w1 with locked := true }))).trans (collide_mats hE e4)
  have k2 : Mats w w4 := by
    split at e5
    · exact k1.trans (solve_mats hE e5)
    · cases e5; exact k1
  have k3 : Mats w w5 := by
    split at e6
    · unfold solveToi at e6
      exact k2.trans ((toiReset_mats w4).trans (toiLoop_mats hE _ e6))
    · cases e6; exact k2
  cases e3
  cases e7
  refine k3.trans ?_
  refine Mats.trans (v := if (World.timeStep { w1 with locked := true } dt vi pi).dt > 0 then { w5 with invDt0 := (World.timeStep { w1 with locked := true } dt vi pi).invDt } else w5) ?_ ?_
  · split <;> exact .easy
  · refine Mats.trans ?_ (Mats.easy (w := if (if (World.timeStep { w1 with locked := true } dt vi pi).dt > 0 then { w5 with invDt0 := (World.timeStep { w1 with locked := true } dt vi pi).invDt } else w5).clearForces then (if (World.timeStep { w1 with locked := true } dt vi pi).dt > 0 then { w5 with invDt0 := (World.timeStep { w1 with locked := true } dt vi pi).invDt } else w5).clearForcesAll else (if (World.timeStep { w1 with locked := true } dt vi pi).dt > 0 then { w5 with invDt0 := (World.timeStep { w1 with locked := true } dt vi pi).invDt } else w5)))
    generalize (if (World.timeStep { w1 with locked := true } dt vi pi).dt > 0 then { w5 with invDt0 := (World.timeStep { w1 with locked := true } dt vi pi).invDt } else w5) = x
    split
    · unfold clearForcesAll; exact Mats.foldl _ (fun _ _ _ => .easy)
    · exact .refl _

end
end B2
