import Verif.Proofs.WorldPhys
import Verif.Proofs.WorldGood
import Verif.Proofs.WorldIslands
import Verif.Proofs.WorldStepTrack
import Verif.Spec.WorldAsleep

/-! Steps of a sleeping world. -/
namespace B2
set_option linter.unusedSectionVars false
open World Spec

section
variable {F : Type} [Field F] [LinearOrder F] [IsStrictOrderedRing F] [Elem F] {env : Env F}

theorem Spec.Unmoved.refl (p : Phys F) : Unmoved p p := ⟨rfl, rfl, rfl, rfl, rfl, rfl, rfl⟩
theorem Spec.Unmoved.trans {p q r : Phys F} (h : Unmoved p q) (k : Unmoved q r) : Unmoved p r :=
  ⟨k.xf.trans h.xf, k.c.trans h.c, k.a.trans h.a, k.v.trans h.v, k.w.trans h.w, k.awake.trans h.awake, k.sleepTime.trans h.sleepTime⟩

/-- Only flags, times of impact and forces have changed. -/
structure Flagged (w w' : World F) : Prop where
  g : w'.g = w.g
  phys : ∀ b, Unmoved (w.phys b) (w'.phys b)
  filter : ∀ c, (w'.cst c).filter = (w.cst c).filter
  complete : w'.stepComplete = w.stepComplete
  log : w'.log = w.log

theorem Flagged.refl (w : World F) : Flagged w w := ⟨rfl, fun _ => .refl _, fun _ => rfl, rfl, rfl⟩
theorem Flagged.trans {w w' w'' : World F} (h : Flagged w w') (k : Flagged w' w'') : Flagged w w'' :=
  ⟨k.g.trans h.g, fun b => (h.phys b).trans (k.phys b), fun c => (k.filter c).trans (h.filter c), k.complete.trans h.complete, k.log.trans h.log⟩

theorem Flagged.foldl {α : Type} {f : World F → α → World F} {l : List α} (hf : ∀ w, ∀ x ∈ l, Flagged w (f w x)) (w : World F) :
    Flagged w (l.foldl f w) :=
  foldl_inv (fun x => Flagged w x) (.refl w) (fun x hx v h => h.trans (hf v x hx))

theorem Flagged.setPhys {w : World F} {b : Nat} {p : Phys F} (h : Unmoved (w.phys b) p) : Flagged w (w.setPhys b p) := by
  refine ⟨rfl, fun x => ?_, fun _ => rfl, rfl, rfl⟩
  unfold World.setPhys
  dsimp only
  by_cases hx : x = b
  · subst hx; rw [upd_same]; exact h
  · rw [upd_other _ _ hx]; exact .refl _

theorem Flagged.setCst {w : World F} {c : Nat} {s : CState F} (h : s.filter = (w.cst c).filter) : Flagged w (w.setCst c s) := by
  refine ⟨rfl, fun _ => .refl _, fun x => ?_, rfl, rfl⟩
  unfold World.setCst
  dsimp only
  by_cases hx : x = c
  · subst hx; rw [upd_same]; exact h
  · rw [upd_other _ _ hx]

theorem jIsland_flagged (w : World F) (j : Nat) (x : Bool) : Flagged w { w with jIsland := upd w.jIsland j x } :=
  ⟨rfl, fun _ => .refl _, fun _ => rfl, rfl, rfl⟩

theorem clearIslandFlags_flagged (w : World F) : Flagged w w.clearIslandFlags := by
  unfold clearIslandFlags
  dsimp only
  refine Flagged.trans ?_ (.foldl (fun v j _ => jIsland_flagged v j false) _)
  refine Flagged.trans ?_ (.foldl (fun _ _ _ => .setCst (by rfl)) _)
  exact .foldl (fun _ _ _ => .setPhys (by exact ⟨rfl, rfl, rfl, rfl, rfl, rfl, rfl⟩)) _

theorem toiReset_flagged (w : World F) : Flagged w w.toiReset := by
  unfold toiReset
  split
  · dsimp only
    refine Flagged.trans ?_ (.foldl (fun _ _ _ => .setCst (by rfl)) _)
    exact .foldl (fun _ _ _ => .setPhys (by exact ⟨rfl, rfl, rfl, rfl, rfl, rfl, rfl⟩)) _
  · exact .refl _

theorem clearForcesAll_flagged (w : World F) : Flagged w w.clearForcesAll :=
  .foldl (fun _ _ _ => .setPhys (by exact ⟨rfl, rfl, rfl, rfl, rfl, rfl, rfl⟩)) _

/-- What a step does to a sleeping world. -/
structure Naps (w w' : World F) : Prop where
  bodies : w'.g.bodyList = w.g.bodyList
  type : ∀ b, w'.typeOf b = w.typeOf b
  enabled : ∀ b, (w'.g.bodies b).enabled = (w.g.bodies b).enabled
  phys : ∀ b, Unmoved (w.phys b) (w'.phys b)
  dorm : Dormant w → Dormant w'
  log : ∃ ev, w'.log = ev ++ w.log ∧ ∀ e ∈ ev, ∃ fA fB, e.kind = .filter fA fB

theorem Naps.refl (w : World F) : Naps w w := ⟨rfl, fun _ => rfl, fun _ => rfl, fun _ => .refl _, id, [], rfl, by simp⟩
theorem Naps.trans {w w' w'' : World F} (h : Naps w w') (k : Naps w' w'') : Naps w w'' := by
  refine ⟨k.bodies.trans h.bodies, fun b => (k.type b).trans (h.type b), fun b => (k.enabled b).trans (h.enabled b), fun b => (h.phys b).trans (k.phys b), k.dorm ∘ h.dorm, ?_⟩
  obtain ⟨e1, a1, b1⟩ := h.log
  obtain ⟨e2, a2, b2⟩ := k.log
  refine ⟨e2 ++ e1, by rw [a2, a1, List.append_assoc], fun e he => ?_⟩
  rcases List.mem_append.mp he with he | he
  · exact b2 e he
  · exact b1 e he

theorem Flagged.naps {w w' : World F} (h : Flagged w w') : Naps w w' := by
  have ht : ∀ b, w'.typeOf b = w.typeOf b := fun b => by unfold World.typeOf; rw [h.g]
  refine ⟨by rw [h.g], ht, fun b => by rw [h.g], h.phys, fun d => ⟨fun b hb he ha => ?_, h.complete.trans d.complete, fun c hc => ?_⟩, [], h.log, by simp⟩
  · rw [ht]; rw [h.g] at hb he; rw [(h.phys b).awake] at ha; exact d.asleep b hb he ha
  · rw [h.filter]; rw [h.g] at hc; exact d.filtered c hc

theorem findNewContacts_naps {w w' : World F} (h : WInv w) (e : w.findNewContacts env = some w') : Naps w w' ∧ WInv w' := by
  obtain ⟨w1, x, e1, hw⟩ := findNewContacts_spec h e
  have hg : w'.g = w1.g := by rw [e1]
  have hp : w'.phys = w.phys := by rw [e1]; exact x.phys
  have ht : ∀ b, w'.typeOf b = w.typeOf b := fun b => by unfold World.typeOf; rw [hg, x.body b]
  have hb : w'.g.bodyList = w.g.bodyList := by rw [hg, x.eq]
  have hen : ∀ b, (w'.g.bodies b).enabled = (w.g.bodies b).enabled := fun b => by rw [hg, x.body b]
  refine ⟨⟨hb, ht, hen, fun b => by rw [hp]; exact .refl _, fun d => ⟨fun b hb' he ha => ?_, ?_, fun c hc => ?_⟩, ?_⟩, hw⟩
  · rw [ht]; rw [hb] at hb'; rw [hp] at ha; rw [hen] at he; exact d.asleep b hb' he ha
  · rw [e1]; exact x.rest.stepComplete.trans d.complete
  · have hc1 : w'.cst = w1.cst := by rw [e1]
    rw [hc1]
    rw [hg] at hc
    by_cases hn : c < w.g.nextContact
    · obtain ⟨-, a2, a3⟩ := x.old c hn
      rw [a2]; exact d.filtered c (a3.mp hc)
    · exact (x.new c hc (by omega)).2.1
  · obtain ⟨ev, l1, l2⟩ := x.log
    refine ⟨ev, by rw [e1]; exact l1, fun e' he => ?_⟩
    obtain ⟨fA, fB, rfl⟩ := l2 e' he
    exact ⟨fA, fB, rfl⟩

theorem contact_inactive {w : World F} (h : WInv w) (d : Dormant w) {c : Nat} (hc : c ∈ w.g.contactList) {b : Nat}
    (hb : w.bodyOf (w.g.contacts c).fA = some b ∨ w.bodyOf (w.g.contacts c).fB = some b) : (w.isAwake b && decide (w.typeOf b ≠ .static)) = false := by
  obtain ⟨hl, he⟩ : b ∈ w.g.bodyList ∧ (w.g.bodies b).enabled = true := by
    obtain ⟨_, _, -, -, -, ⟨x, hx, ex, ox, -⟩, ⟨y, hy, ey, oy, -⟩, -⟩ := h.ok c hc
    rcases hb with hb | hb
    · have : x = b := Option.some.inj (ox.symm.trans hb)
      subst this; exact ⟨hx, ex⟩
    · have : y = b := Option.some.inj (oy.symm.trans hb)
      subst this; exact ⟨hy, ey⟩
  cases ha : w.isAwake b
  · rfl
  · simp [d.asleep b hl he ha]

theorem collideOne_asleep {w : World F} (h : WInv w) (d : Dormant w) {c : Nat} (hc : c ∈ w.g.contactList) {x : World F × Bool}
    (e : w.collideOne env c = some x) : x = (w, true) := by
  unfold collideOne at e
  simp only [Option.bind_eq_bind, Option.bind_eq_some_iff] at e
  obtain ⟨bA, hA, bB, hB, e⟩ := e
  rw [if_neg (by rw [d.filtered c hc]; simp)] at e
  unfold collideActive at e
  dsimp only at e
  rw [if_pos ⟨contact_inactive h d hc (.inl hA), contact_inactive h d hc (.inr hB)⟩] at e
  exact (Option.some.inj e).symm

theorem collideLoop_asleep {w : World F} (h : WInv w) (d : Dormant w) : ∀ {l : List Nat}, (∀ c ∈ l, c ∈ w.g.contactList) → ∀ {x : World F × List Nat},
    collideLoop env l w [] = some x → x = (w, []) := by
  intro l
  induction l with
  | nil => intro _ x e; exact (Option.some.inj e).symm
  | cons c l ih =>
    intro hl x e
    unfold collideLoop at e
    simp only [Option.bind_eq_bind, Option.bind_eq_some_iff] at e
    obtain ⟨y, e1, e2⟩ := e
    rw [collideOne_asleep h d (hl c (by simp)) e1] at e2
    exact ih (fun c hc => hl c (by simp [hc])) e2

theorem collide_asleep {w w' : World F} (h : WInv w) (d : Dormant w) (e : w.collide env = some w') : w' = w := by
  unfold collide at e
  simp only [Option.bind_eq_bind, Option.bind_eq_some_iff] at e
  obtain ⟨y, e1, e2⟩ := e
  rw [collideLoop_asleep h d (fun _ h => h) e1] at e2
  exact (Option.some.inj e2).symm

theorem solveIslands_asleep {w : World F} (d : Dormant w) {step : TimeStep F} {x : World F × List Island}
    (e : w.solveIslands env step = some x) : x = (w.clearIslandFlags, []) := by
  unfold solveIslands at e
  have f := clearIslandFlags_flagged w
  have d' := f.naps.dorm d
  refine foldlM_inv (fun y => y = (w.clearIslandFlags, [])) e rfl ?_
  rintro b hb v v' rfl hv
  unfold solveSeed at hv
  rw [if_pos] at hv
  · exact (Option.some.inj hv).symm
  · unfold isSeed
    dsimp only
    cases ha : w.clearIslandFlags.isAwake b
    · simp
    cases he : (w.clearIslandFlags.g.bodies b).enabled
    · simp
    · simp [d'.asleep b hb he ha]

theorem solve_asleep {w w' : World F} (h : WInv w) (d : Dormant w) {step : TimeStep F} (e : w.solve env step = some w') : Naps w w' ∧ WInv w' := by
  unfold solve at e
  simp only [Option.bind_eq_bind, Option.bind_eq_some_iff] at e
  obtain ⟨x, e1, w2, e2, e3⟩ := e
  rw [solveIslands_asleep d e1] at e2
  have f := clearIslandFlags_flagged w
  have h2 : w2 = w.clearIslandFlags := by
    refine foldlM_inv (fun y => y = w.clearIslandFlags) e2 rfl ?_
    rintro b hb v v' rfl hv
    rw [if_pos] at hv
    · exact (Option.some.inj hv).symm
    · refine (clearIslandFlags_spec w).1 b ?_
      rw [← f.g]; exact hb
  subst h2
  have hw : WInv w.clearIslandFlags := h.frame f.g (clearIslandFlags_mild w).toWFrame.bp
  obtain ⟨n, k⟩ := findNewContacts_naps hw e3
  exact ⟨f.naps.trans n, k⟩

theorem toiOf_asleep {w : World F} (h : WInv w) (d : Dormant w) {c : Nat} (hc : c ∈ w.g.contactList) (hf : (w.cst c).toiFlag = false)
    {x : World F × Option F} (e : w.toiOf env c = some x) : x = (w, none) := by
  unfold toiOf at e
  dsimp only at e
  split at e
  · exact (Option.some.inj e).symm
  split at e
  · exact (Option.some.inj e).symm
  rw [if_neg (by rw [hf]; simp)] at e
  split at e
  · exact (Option.some.inj e).symm
  simp only [Option.bind_eq_bind, Option.bind_eq_some_iff] at e
  obtain ⟨bA, hA, bB, hB, e⟩ := e
  split at e
  · cases e
  split at e
  · cases e
  rw [if_pos ⟨contact_inactive h d hc (.inl hA), contact_inactive h d hc (.inr hB)⟩] at e
  exact (Option.some.inj e).symm

theorem toiScan_asleep {w : World F} (h : WInv w) (d : Dormant w) (hf : ∀ c ∈ w.g.contactList, (w.cst c).toiFlag = false) :
    ∀ {l : List Nat}, (∀ c ∈ l, c ∈ w.g.contactList) → ∀ {m : F} {x : World F × Option Nat × F}, toiScan env l w none m = some x → x = (w, none, m) := by
  intro l
  induction l with
  | nil => intro _ m x e; exact (Option.some.inj e).symm
  | cons c l ih =>
    intro hl m x e
    unfold toiScan at e
    simp only [Option.bind_eq_bind, Option.bind_eq_some_iff] at e
    obtain ⟨y, e1, e2⟩ := e
    have hc := hl c (by simp)
    rw [toiOf_asleep h d hc (hf c hc) e1] at e2
    exact ih (fun c hc => hl c (by simp [hc])) e2

theorem foldl_toi_unflagged (c : Nat) : ∀ (l : List Nat) (v : World F), (c ∈ l ∨ (v.cst c).toiFlag = false) →
    ((l.foldl (fun (w : World F) c => w.setCst c { w.cst c with toiFlag := false, island := false, toiCount := 0, toi := 1 }) v).cst c).toiFlag = false := by
  intro l
  induction l with
  | nil => intro v h; rcases h with h | h; · cases h
           · exact h
  | cons a l ih =>
    intro v h
    rw [List.foldl_cons]
    refine ih _ ?_
    by_cases hca : c = a
    · right
      subst hca
      show (upd v.cst c _ c).toiFlag = false
      rw [upd_same]
    · rcases h with h | h
      · rcases List.mem_cons.mp h with h | h
        · exact absurd h hca
        · exact .inl h
      · right
        show (upd v.cst a _ c).toiFlag = false
        rw [upd_other _ _ hca]; exact h

theorem toiReset_unflagged {w : World F} (hc : w.stepComplete = true) (c : Nat) (h : c ∈ w.g.contactList) : (w.toiReset.cst c).toiFlag = false := by
  unfold toiReset
  rw [if_pos hc]
  dsimp only
  refine foldl_toi_unflagged c _ _ (.inl ?_)
  have f : Flagged w (w.g.bodyList.foldl (fun w b => w.setPhys b { w.phys b with island := false, sweep := { (w.phys b).sweep with alpha0 := 0 } }) w) :=
    .foldl (fun _ _ _ => .setPhys (by exact ⟨rfl, rfl, rfl, rfl, rfl, rfl, rfl⟩)) _
  rw [f.g]; exact h

theorem solveToi_asleep {w w' : World F} (h : WInv w) (d : Dormant w) {step : TimeStep F} (e : w.solveToi env step = some w') : Naps w w' := by
  unfold solveToi at e
  dsimp only at e
  have f := toiReset_flagged w
  have d' := f.naps.dorm d
  have hw : WInv w.toiReset := h.frame f.g (toiReset_soft w).bp
  have hf : ∀ c ∈ w.toiReset.g.contactList, (w.toiReset.cst c).toiFlag = false :=
    fun c hc => toiReset_unflagged d.complete c (by rw [← f.g]; exact hc)
  unfold toiFuel at e
  unfold toiLoop at e
  simp only [Option.bind_eq_bind, Option.bind_eq_some_iff] at e
  obtain ⟨y, e1, e2⟩ := e
  rw [toiScan_asleep hw d' hf (fun _ h => h) e1] at e2
  cases e2
  exact f.naps.trans ⟨rfl, fun _ => rfl, fun _ => rfl, fun _ => .refl _, fun d => ⟨d.asleep, rfl, d.filtered⟩, [], rfl, by simp⟩

theorem step_asleep {w w' : World F} (h : WInv w) (d : Dormant w) {dt : F} {vi pi : Nat} (e : w.step env dt vi pi = some w') : Naps w w' := by
  unfold step stepBegin at e
  simp only [Option.bind_eq_bind, Option.bind_eq_some_iff] at e
  obtain ⟨w1, e1, w2, e2, e3⟩ := e
  have n1 : Naps w w1 ∧ WInv w1 := by
    split at e1
    · simp only [Option.bind_eq_some_iff] at e1
      obtain ⟨w0, e0, e1⟩ := e1
      obtain ⟨n, k⟩ := findNewContacts_naps h e0
      cases e1
      exact ⟨n.trans ⟨rfl, fun _ => rfl, fun _ => rfl, fun _ => .refl _, fun d => ⟨d.asleep, d.complete, d.filtered⟩, [], rfl, by simp⟩, k.frame rfl rfl⟩
    · cases e1; exact ⟨.refl _, h⟩
  obtain ⟨n1, i1⟩ := n1
  have d1 := n1.dorm d
  have d1' : Dormant { w1 with locked := true } := ⟨d1.asleep, d1.complete, d1.filtered⟩
  have i1' : WInv { w1 with locked := true } := i1.frame rfl rfl
  unfold stepLocked at e2
  simp only [Option.bind_eq_bind, Option.bind_eq_some_iff] at e2
  obtain ⟨w3, c3, w4, c4, w5, c5, c6⟩ := e2
  have h3 := collide_asleep i1' d1' c3
  subst h3
  have n4 : Naps { w1 with locked := true } w4 ∧ WInv w4 := by
    split at c4
    · exact solve_asleep i1' d1' c4
    · cases c4; exact ⟨.refl _, i1'⟩
  have n5 : Naps w4 w5 := by
    split at c5
    · exact solveToi_asleep n4.2 (n4.1.dorm d1') c5
    · cases c5; exact .refl _
  have n6 : Naps w5 w2 := by
    cases c6
    have k : Naps w5 (if dt > 0 then { w5 with invDt0 := if dt > 0 then 1 / dt else 0 } else w5) := by
      split
      · exact ⟨rfl, fun _ => rfl, fun _ => rfl, fun _ => .refl _, fun d => ⟨d.asleep, d.complete, d.filtered⟩, [], rfl, by simp⟩
      · exact .refl _
    refine k.trans ?_
    have k2 : ∀ u : World F, Naps u (if u.clearForces then u.clearForcesAll else u) := fun u => by
      split
      · exact (clearForcesAll_flagged _).naps
      · exact .refl _
    exact k2 _
  cases e3
  refine n1.trans (Naps.trans ?_ (n4.1.trans (n5.trans (n6.trans ?_))))
  all_goals exact ⟨rfl, fun _ => rfl, fun _ => rfl, fun _ => .refl _, fun d => ⟨d.asleep, d.complete, d.filtered⟩, [], rfl, by simp⟩
end
end B2
