import Verif.Proofs.WorldGood

/-! `collide`, continuous collision and the whole step keep the invariants. -/
namespace B2
set_option linter.unusedSectionVars false
open Spec

section
variable {F : Type} [Field F] [LinearOrder F] [IsStrictOrderedRing F] [Elem F]

/-- As `Mild`, but the counts of sub-steps may change. -/
structure Soft (w w' : World F) : Prop extends WFrame w w' where
  filter : ∀ c, (w'.cst c).filter = (w.cst c).filter
  touching : ∀ c, (w'.cst c).touching = (w.cst c).touching
  awake : ∀ b, w.typeOf b = .static → (w'.phys b).awake = (w.phys b).awake
  log : w'.log = w.log

namespace Soft
variable {w w' w'' : World F}
theorem refl (w : World F) : Soft w w := ⟨.refl w, fun _ => rfl, fun _ => rfl, fun _ _ => rfl, rfl⟩
theorem trans (h : Soft w w') (h' : Soft w' w'') : Soft w w'' :=
  ⟨h.toWFrame.trans h'.toWFrame, fun c => (h'.filter c).trans (h.filter c), fun c => (h'.touching c).trans (h.touching c),
    fun b hb => (h'.awake b (by rw [h.typeOf]; exact hb)).trans (h.awake b hb), h'.log.trans h.log⟩
theorem tr {env : Env F} (h : Soft w w') : Tr env w w' := by
  refine ⟨fun hs b hb ht => ?_, fun hf => hf.congr (by rw [h.g]; exact fun _ h => h) (by rw [h.g]; exact fun _ h => h) (by rw [h.g]) (by rw [h.g]) (fun f => by rw [h.g])
    (fun c => by rw [h.filter]; exact id), fun he => he.congr (ev := []) (by rw [h.g]) (fun c _ => h.touching c) h.log (by simp)⟩
  rw [h.g] at hb
  rw [h.typeOf] at ht
  rw [h.awake b ht]
  exact hs b hb ht
end Soft

namespace World

theorem Good.soft {env : Env F} {w w' : World F} (h : WInv w) (hs : Soft w w') : Good env w w' :=
  .frame h hs.toWFrame hs.tr ⟨[], hs.log, by simp⟩

theorem setPhys_soft {w : World F} {b : Nat} {p : Phys F} (h : w.typeOf b = .static → p.awake = (w.phys b).awake) : Soft w (w.setPhys b p) := by
  have m := setPhys_mild h
  exact ⟨m.toWFrame, m.filter, m.touching, m.awake, rfl⟩

theorem setCst_soft {w : World F} {c : Nat} {s : CState F} (h1 : s.filter = (w.cst c).filter) (h2 : s.touching = (w.cst c).touching) :
    Soft w (w.setCst c s) :=
  ⟨⟨rfl⟩, fun x => proj_upd (fun q : CState F => q.filter) h1 x, fun x => proj_upd (fun q : CState F => q.touching) h2 x, fun _ _ => rfl, rfl⟩

theorem foldl_soft {α : Type} {f : World F → α → World F} {l : List α} (hf : ∀ w, ∀ x ∈ l, Soft w (f w x)) (w : World F) : Soft w (l.foldl f w) :=
  foldl_inv (fun x => Soft w x) (.refl w) (fun x hx v h => h.trans (hf v x hx))

/-! ### Destroying the contacts found by `collide` -/

theorem collideLoop_spec {env : Env F} : ∀ (l : List Nat) {w w' : World F} {ds ds' : List Nat}, WInv w → (∀ c ∈ l, c ∈ w.g.contactList) → l.Nodup →
    collideLoop env l w ds = some (w', ds') → WInv w' ∧ WFrame w w' ∧ (StaticInv w → StaticInv w') ∧ (EvInv env w → EvInv env w') ∧
    (∃ ev, w'.log = ev ++ w.log ∧ ∀ e ∈ ev, e.locked = w.locked) ∧
    ∃ new, ds' = ds ++ new ∧ new.Sublist l ∧
      ∀ c ∈ l, c ∉ new → (w.cst c).filter = true → ∀ a b, w.g.joins c a b → ∀ j ∈ w.g.jointList, w.g.jjoins j a b → (w.g.joints j).collideConnected = true := by
  intro l
  induction l with
  | nil =>
    intro w w' ds ds' h _ _ e
    cases e
    exact ⟨h, .refl _, id, id, ⟨[], rfl, by simp⟩, [], by simp, .refl _, by simp⟩
  | cons c l ih =>
    intro w w' ds ds' h hm hn e
    unfold collideLoop at e
    simp only [Option.bind_eq_bind, Option.bind_eq_some_iff] at e
    obtain ⟨⟨w1, k⟩, e1, e2⟩ := e
    obtain ⟨a1, a2, a3, a4, a5, a6, a7⟩ := collideOne_good h (hm c (by simp)) e1
    obtain ⟨b1, b2, b3, b4, b5, new, b6, b7, b8⟩ := ih a1 (fun x hx => by rw [a2.g]; exact hm x (by simp [hx])) (List.nodup_cons.mp hn).2 e2
    refine ⟨b1, a2.trans b2, b3 ∘ a3, b4 ∘ a4, ?_, ?_⟩
    · obtain ⟨e1, x1, x2⟩ := a5
      obtain ⟨e2, y1, y2⟩ := b5
      refine ⟨e2 ++ e1, by rw [y1, x1, List.append_assoc], fun e he => ?_⟩
      rcases List.mem_append.mp he with he | he
      · rw [y2 e he, a2.locked]
      · exact x2 e he
    · refine ⟨(if k then [] else [c]) ++ new, ?_, ?_, ?_⟩
      · rw [b6]; cases k <;> simp
      · cases k
        · exact List.Sublist.cons_cons c b7
        · exact List.Sublist.cons c b7
      · intro x hx hxn hf a b hj j hjm hjj
        rcases List.mem_cons.mp hx with rfl | hx
        · cases k
          · simp at hxn
          · exact a7 rfl hf a b hj j hjm hjj
        · have hxc : x ≠ c := fun h' => (List.nodup_cons.mp hn).1 (h' ▸ hx)
          have := b8 x hx (fun h' => hxn (by simp [h'])) (by rw [a6 x hxc]; exact hf) a b (by rw [a2.g]; exact hj) j (by rw [a2.g]; exact hjm) (by rw [a2.g]; exact hjj)
          rwa [a2.g] at this

theorem destroyList_good {env : Env F} {w w' : World F} : ∀ {l : List Nat}, WInv w → l.Nodup → (∀ c ∈ l, c ∈ w.g.contactList) →
    l.foldlM (contactDestroy env) w = some w' → Good env w w' := by
  intro l
  induction l generalizing w with
  | nil => intro h _ _ e; cases e; exact .refl h
  | cons c l ih =>
    intro h hn hm e
    rw [List.foldlM_cons, Option.bind_eq_bind, Option.bind_eq_some_iff] at e
    obtain ⟨w1, e1, e2⟩ := e
    have g1 := contactDestroy_good h (hm c (by simp)) e1
    have cut := contactDestroy_cut h.link (hm c (by simp)) e1
    refine g1.trans (ih g1.winv (List.nodup_cons.mp hn).2 (fun x hx => ?_) e2)
    exact (cut.shrunk.mem x).mpr ⟨hm x (by simp [hx]), fun h' => (List.nodup_cons.mp hn).1 (h' ▸ hx)⟩

theorem collide_good {env : Env F} {w w' : World F} (h : WInv w) (e : w.collide env = some w') :
    Good env w w' ∧ (FiltInv w → NoJoined w') ∧ ∀ c ∈ w'.g.contactList, c ∈ w.g.contactList := by
  unfold collide at e
  simp only [Option.bind_eq_bind, Option.bind_eq_some_iff] at e
  obtain ⟨⟨w1, ds⟩, e1, e2⟩ := e
  obtain ⟨b1, b2, b3, b4, b5, new, b6, b7, b8⟩ := collideLoop_spec _ h (fun _ h => h) h.link.nodup e1
  simp only [List.nil_append] at b6
  subst b6
  have hm : ∀ c ∈ ds, c ∈ w1.g.contactList := fun c hc => by rw [b2.g]; exact b7.subset hc
  have hnd : ds.Nodup := b7.nodup h.link.nodup
  have g2 := destroyList_good b1 hnd hm e2
  have cut := destroyList_cut ds b1.link hnd hm e2
  have hs := cut.shrunk
  have hnj : FiltInv w → NoJoined w' := by
    intro hf c hc j hj hcc hjo
    rw [hs.jointList, b2.g] at hj
    rw [hs.joints, b2.g] at hcc hjo
    have hc1 := (hs.mem c).mp hc
    have hjo' := hs.joins.mp hjo
    rw [b2.g] at hc1 hjo'
    have := b8 c hc1.1 hc1.2 (hf c hc1.1 j hj hcc hjo') _ _ hjo' j hj (Or.inl ⟨rfl, rfl⟩)
    rw [hcc] at this
    cases this
  have hsub : ∀ c ∈ w'.g.contactList, c ∈ w.g.contactList := fun c hc => by
    have := ((hs.mem c).mp hc).1
    rwa [b2.g] at this
  refine ⟨⟨g2.winv, ⟨g2.tr.static ∘ b3, fun hf c hc j hj hcc hjo => absurd hjo (hnj hf c hc j hj hcc), g2.tr.ev ∘ b4⟩, ?_, ?_, b2.rest.trans g2.rest, ?_, ?_⟩, hnj, hsub⟩
  · intro b
    have := g2.body b
    rw [b2.g] at this
    exact this
  · rw [g2.eq, b2.g]
  · obtain ⟨e1, x1, x2⟩ := b5
    obtain ⟨e2, y1, y2⟩ := g2.log
    refine ⟨e2 ++ e1, by rw [y1, x1, List.append_assoc], fun e he => ?_⟩
    rcases List.mem_append.mp he with he | he
    · rw [y2 e he, b2.locked]
    · exact x2 e he
  · intro hn
    refine hnj fun c hc j hj hcc hjo => absurd hjo (hn c hc j hj hcc)

/-! ### Continuous collision -/

theorem toiReset_soft (w : World F) : Soft w w.toiReset := by
  unfold toiReset
  split
  · dsimp only
    refine Soft.trans ?_ (foldl_soft (fun _ _ _ => setCst_soft (by rfl) (by rfl)) _)
    exact foldl_soft (fun _ _ _ => setPhys_soft (by intro _; rfl)) _
  · exact .refl _

theorem alignSweeps_mild {w w' : World F} {bA bB : Nat} {a : F} (e : w.alignSweeps bA bB = some (w', a)) : Mild w w' := by
  unfold alignSweeps at e
  dsimp only at e
  split at e
  · simp only [Option.bind_eq_bind, Option.bind_eq_some_iff] at e
    obtain ⟨s, -, e⟩ := e
    split at e
    · cases e; exact setPhys_mild (by intro _; rfl)
    · cases e
  split at e
  · simp only [Option.bind_eq_bind, Option.bind_eq_some_iff] at e
    obtain ⟨s, -, e⟩ := e
    split at e
    · cases e; exact setPhys_mild (by intro _; rfl)
    · cases e
  split at e
  · cases e; exact .refl _
  · cases e

theorem toiOf_mild {env : Env F} {w w' : World F} {c : Nat} {a : Option F} (e : w.toiOf env c = some (w', a)) :
    Mild w w' ∧ (a.isSome → (w.cst c).toiCount ≤ maxSubSteps) := by
  unfold toiOf at e
  dsimp only at e
  split at e
  · cases e; exact ⟨.refl _, by simp⟩
  split at e
  · cases e; exact ⟨.refl _, by simp⟩
  rename_i hc
  have hle : (w.cst c).toiCount ≤ maxSubSteps := by omega
  split at e
  · cases e; exact ⟨.refl _, fun _ => hle⟩
  split at e
  · cases e; exact ⟨.refl _, by simp⟩
  refine ⟨?_, fun _ => hle⟩
  simp only [Option.bind_eq_bind, Option.bind_eq_some_iff] at e
  obtain ⟨bA, -, bB, -, e⟩ := e
  split at e
  · cases e
  split at e
  · cases e
  split at e
  · cases e; exact .refl _
  split at e
  · cases e; exact .refl _
  simp only [Option.bind_eq_some_iff] at e
  obtain ⟨⟨w1, a0⟩, e1, r, -, e2⟩ := e
  cases e2
  exact (alignSweeps_mild e1).trans (setCst_mild (by rfl) (by rfl) (by rfl))

theorem toiScan_mild {env : Env F} : ∀ (l : List Nat) {w w' : World F} {best best' : Option Nat} {m m' : F},
    toiScan env l w best m = some (w', best', m') → Mild w w' ∧
      (∀ c, best' = some c → best = some c ∨ c ∈ l ∧ (w.cst c).toiCount ≤ maxSubSteps) := by
  intro l
  induction l with
  | nil => intro w w' best best' m m' e; cases e; exact ⟨.refl _, fun c h => Or.inl h⟩
  | cons c l ih =>
    intro w w' best best' m m' e
    unfold toiScan at e
    simp only [Option.bind_eq_bind, Option.bind_eq_some_iff] at e
    obtain ⟨⟨w1, a⟩, e1, e2⟩ := e
    obtain ⟨m1, hc⟩ := toiOf_mild e1
    cases a with
    | none =>
      obtain ⟨m2, h2⟩ := ih e2
      refine ⟨m1.trans m2, fun x hx => ?_⟩
      rcases h2 x hx with h | ⟨h, h'⟩
      · exact Or.inl h
      · exact Or.inr ⟨by simp [h], by rw [← m1.toiCount]; exact h'⟩
    | some alpha =>
      dsimp only at e2
      split at e2
      · obtain ⟨m2, h2⟩ := ih e2
        refine ⟨m1.trans m2, fun x hx => Or.inr ?_⟩
        rcases h2 x hx with h | ⟨h, h'⟩
        · cases h; exact ⟨by simp, hc rfl⟩
        · exact ⟨by simp [h], by rw [← m1.toiCount]; exact h'⟩
      · obtain ⟨m2, h2⟩ := ih e2
        refine ⟨m1.trans m2, fun x hx => ?_⟩
        rcases h2 x hx with h | ⟨h, h'⟩
        · exact Or.inl h
        · exact Or.inr ⟨by simp [h], by rw [← m1.toiCount]; exact h'⟩

theorem advance_mild {w w' : World F} {b : Nat} {alpha : F} (e : w.advance b alpha = some w') : Mild w w' := by
  unfold advance at e
  simp only [Option.bind_eq_bind, Option.bind_eq_some_iff] at e
  obtain ⟨p, h1, h2⟩ := e
  cases h2
  unfold Phys.advance at h1
  simp only [Option.bind_eq_bind, Option.bind_eq_some_iff] at h1
  obtain ⟨s, -, h1⟩ := h1
  cases h1
  exact setPhys_mild (by intro _; rfl)

theorem restore_mild (w : World F) (b : Nat) (s : Sweep F) : Mild w (w.restore b s) := setPhys_mild (by intro _; rfl)

theorem toiAddBody_mild (x : World F × Island) (b : Nat) : Mild x.1 (toiAddBody x b).1 := setPhys_mild (by intro _; rfl)

/-- As `Good`, with the counts of sub-steps. -/
structure GoodT (env : Env F) (w w' : World F) : Prop extends Good env w w' where
  count : ∀ c < w.g.nextContact, (w'.cst c).toiCount = (w.cst c).toiCount
  list : ∃ l, w'.g.contactList = l ++ w.g.contactList
  next : w.g.nextContact ≤ w'.g.nextContact

namespace GoodT
variable {env : Env F} {w w' w'' : World F}
theorem refl (h : WInv w) : GoodT env w w := ⟨.refl h, fun _ _ => rfl, ⟨[], rfl⟩, le_refl _⟩
theorem trans (h : GoodT env w w') (h' : GoodT env w' w'') : GoodT env w w'' := by
  refine ⟨h.toGood.trans h'.toGood, fun c hc => (h'.count c (lt_of_lt_of_le hc h.next)).trans (h.count c hc), ?_, h.next.trans h'.next⟩
  obtain ⟨l, e⟩ := h.list
  obtain ⟨l', e'⟩ := h'.list
  exact ⟨l' ++ l, by rw [e', e, List.append_assoc]⟩
theorem mild (h : WInv w) (hm : Mild w w') : GoodT env w w' :=
  ⟨.mild h hm, fun c _ => hm.toiCount c, ⟨[], by rw [hm.g]; rfl⟩, by rw [hm.g]⟩
theorem bpf {N : Nat × Nat → AABB F → Prop} (h : WInv w) (hf : BpFrame N w w') (hp : PInv w') : GoodT env w w' :=
  ⟨.bpf h hf hp, fun c _ => by rw [hf.cst], ⟨[], by rw [hf.g]; rfl⟩, by rw [hf.g]⟩
theorem update {c : Nat} (h : WInv w) (hc : c ∈ w.g.contactList) (e : w.contactUpdate env c = some w') : GoodT env w w' := by
  obtain ⟨f, cm, -, -⟩ := contactUpdate_spec e
  exact ⟨contactUpdate_good h hc e, fun c _ => cm.toiCount c, ⟨[], by rw [f.g]; rfl⟩, by rw [f.g]⟩
theorem find (h : WInv w) (e : w.findNewContacts env = some w') : GoodT env w w' := by
  obtain ⟨w1, x1, e1, -⟩ := findNewContacts_spec h e
  have hg : w'.g = w1.g := by rw [e1]
  have hc : w'.cst = w1.cst := by rw [e1]
  exact ⟨findNewContacts_good h e, fun c h => by rw [hc, (x1.old c h).2.1], by rw [hg]; exact x1.suffix, by rw [hg]; exact x1.next⟩
end GoodT

theorem toiVisit_good {env : Env F} {alpha : F} {body : Nat} {x x' : World F × Island} {ed : Nat × Nat} (h : WInv x.1)
    (hm : ed.1 ∈ x.1.g.contactList) (e : toiVisit env alpha body x ed = some x') : GoodT env x.1 x'.1 ∧ WFrame x.1 x'.1 := by
  unfold toiVisit at e
  dsimp only at e
  split at e
  · cases e; exact ⟨.refl h, .refl _⟩
  split at e
  · cases e
  split at e
  · cases e; exact ⟨.refl h, .refl _⟩
  split at e
  · cases e; exact ⟨.refl h, .refl _⟩
  simp only [Option.bind_eq_bind, Option.bind_eq_some_iff] at e
  obtain ⟨w1, e1, w2, e2, e⟩ := e
  have m1 : Mild x.1 w1 := by
    split at e1
    · exact advance_mild e1
    · cases e1; exact .refl _
  have g1 : GoodT env x.1 w1 := .mild h m1
  have hm1 : ed.1 ∈ w1.g.contactList := by rw [m1.g]; exact hm
  have g2 : GoodT env w1 w2 := .update g1.winv hm1 e2
  have f2 := (contactUpdate_spec e2).1
  have g12 := g1.trans g2
  have f12 := m1.toWFrame.trans f2
  split at e
  · cases e
    have m3 := restore_mild w2 ed.2 (x.1.phys ed.2).sweep
    exact ⟨g12.trans (.mild g12.winv m3), f12.trans m3.toWFrame⟩
  have m3 : Mild w2 (w2.setCst ed.1 { w2.cst ed.1 with island := true }) := setCst_mild (by rfl) (by rfl) (by rfl)
  have g3 := g12.trans (.mild g12.winv m3)
  have f3 := f12.trans m3.toWFrame
  split at e
  · cases e
    exact ⟨g3, f3⟩
  cases e
  generalize w2.setCst ed.1 { w2.cst ed.1 with island := true } = w3 at *
  have m4 : Mild w3 (if w3.typeOf ed.2 ≠ .static then w3.setAwake ed.2 true else w3) := by
    split
    · exact setAwake_mild _ _ _
    · exact .refl _
  generalize (if w3.typeOf ed.2 ≠ .static then w3.setAwake ed.2 true else w3) = w4 at *
  have m5 := m4.trans (toiAddBody_mild (w4, { x.2 with contacts := x.2.contacts ++ [ed.1] }) ed.2)
  exact ⟨g3.trans (.mild g3.winv m5), f3.trans m5.toWFrame⟩

theorem toiVisits_good {env : Env F} {alpha : F} {body : Nat} {x x' : World F × Island} (h : WInv x.1)
    (e : toiVisits env alpha x body = some x') : GoodT env x.1 x'.1 ∧ WFrame x.1 x'.1 := by
  unfold toiVisits at e
  split at e
  · refine foldlM_inv (fun y : World F × Island => GoodT env x.1 y.1 ∧ WFrame x.1 y.1) e ⟨.refl h, .refl _⟩ ?_
    rintro ⟨c, o⟩ hed y y' ⟨hy, hyf⟩ hv
    have hm : c ∈ y.1.g.contactList := by
      rw [hyf.g]
      exact ((h.link.edges body c o).mp hed).1
    obtain ⟨a1, a2⟩ := toiVisit_good hy.winv hm hv
    exact ⟨hy.trans a1, hyf.trans a2⟩
  · cases e; exact ⟨.refl h, .refl _⟩

theorem leap_mild (w : World F) (b : Nat) (c : Vec2 F × F) : Mild w (w.leap b c) := setPhys_mild (by intro _; rfl)

theorem islandSolveToi_mild {env : Env F} {w w' : World F} {cap : Nat} {isl : Island} {step : TimeStep F} {iA iB : Int}
    (e : w.islandSolveToi env cap isl step iA iB = some w') : Mild w w' := by
  unfold islandSolveToi at e
  split at e
  · cases e
  simp only [Option.bind_eq_bind, Option.bind_eq_some_iff] at e
  obtain ⟨bA, -, bB, -, e⟩ := e
  exact (((leap_mild _ _ _).trans (leap_mild _ _ _)).trans (writeBack_mild _ _ _)).trans (report_mild e)

theorem toiRelease_good {env : Env F} {w w' : World F} {b : Nat} (h : WInv w) (e : w.toiRelease b = some w') : GoodT env w w' := by
  unfold toiRelease at e
  dsimp only at e
  have m1 : Mild w (w.setPhys b { w.phys b with island := false }) := setPhys_mild (by intro _; rfl)
  have g1 : GoodT env w _ := .mild h m1
  split at e
  · cases e; exact g1
  · simp only [Option.bind_eq_bind, Option.bind_eq_some_iff] at e
    obtain ⟨w2, e2, e3⟩ := e
    obtain ⟨w2', k1, k2, k3⟩ := synchronizeFixtures_spec b g1.winv.pinv
    rw [k1] at e2
    cases e2
    have g2 := g1.trans (.bpf g1.winv k2 k3)
    cases e3
    exact g2.trans (.mild g2.winv (foldl_mild (fun _ _ _ => setCst_mild (by rfl) (by rfl) (by rfl)) _))

theorem toiSolid_good {env : Env F} {step : TimeStep F} {w w' : World F} {c bA bB : Nat} {alpha : F} (h : WInv w)
    (e : w.toiSolid env step c bA bB alpha = some w') : GoodT env w w' := by
  unfold toiSolid at e
  simp only [Option.bind_eq_bind, Option.bind_eq_some_iff] at e
  obtain ⟨x2, e0, w3, e3, w4, e4, e5⟩ := e
  unfold toiIsland at e0
  simp only [Option.bind_eq_bind, Option.bind_eq_some_iff] at e0
  obtain ⟨x1, e1, e2⟩ := e0
  have m0 : Mild w (toiAddBody (toiAddBody ((w.setAwake bA true).setAwake bB true, ⟨[], [c], []⟩) bA) bB).1 :=
    ((setAwake_mild w bA true).trans (setAwake_mild _ bB true)).trans ((toiAddBody_mild (_, ⟨[], [c], []⟩) bA).trans (toiAddBody_mild _ bB))
  generalize toiAddBody (toiAddBody ((w.setAwake bA true).setAwake bB true, ⟨[], [c], []⟩) bA) bB = x0 at m0 e1
  have m1 : Mild x0.1 (x0.1.setCst c { x0.1.cst c with island := true }) := setCst_mild (by rfl) (by rfl) (by rfl)
  have g0 : GoodT env w _ := .mild h (m0.trans m1)
  have g1 := g0.trans (toiVisits_good g0.winv e1).1
  have g2 := g1.trans (toiVisits_good g1.winv e2).1
  have g3 := g2.trans (.mild g2.winv (islandSolveToi_mild e3))
  have g4 : GoodT env w w4 := foldlM_inv (fun y : World F => GoodT env w y) e4 g3 (fun b _ y y' hy hv => hy.trans (toiRelease_good hy.winv hv))
  exact g4.trans (.find g4.winv e5)

/-- One time of impact: the counter of its contact goes up by one, the others stay. -/
theorem toiEvent_good {env : Env F} {step : TimeStep F} {w w' : World F} {c : Nat} {alpha : F} {solid : Bool} (h : WInv w) (hc : c ∈ w.g.contactList)
    (e : w.toiEvent env step c alpha = some (w', solid)) : Good env w w' ∧ (∃ l, w'.g.contactList = l ++ w.g.contactList) ∧
      (w'.cst c).toiCount = (w.cst c).toiCount + 1 ∧ ∀ x < w.g.nextContact, x ≠ c → (w'.cst x).toiCount = (w.cst x).toiCount := by
  unfold toiEvent at e
  simp only [Option.bind_eq_bind, Option.bind_eq_some_iff] at e
  obtain ⟨bA, -, bB, -, w1, e1, w2, e2, w3, e3, e⟩ := e
  have m2 := (advance_mild e1).trans (advance_mild e2)
  have g2 : GoodT env w w2 := .mild h m2
  have hc2 : c ∈ w2.g.contactList := by rw [m2.g]; exact hc
  have g3 : GoodT env w w3 := g2.trans (.update g2.winv hc2 e3)
  have f3 : WFrame w w3 := m2.toWFrame.trans (contactUpdate_spec e3).1
  have hlt := h.link.lt c hc
  set w4 := w3.setCst c { w3.cst c with toiFlag := false, toiCount := (w3.cst c).toiCount + 1 } with hw4
  have s4 : Soft w3 w4 := setCst_soft (by rfl) (by rfl)
  have c4 : (w4.cst c).toiCount = (w3.cst c).toiCount + 1 := congrArg CState.toiCount (upd_same _ _ _)
  have o4 : ∀ x, x ≠ c → w4.cst x = w3.cst x := fun x hx => upd_other _ _ hx
  have G4 : Good env w w4 := g3.toGood.trans (.soft g3.winv s4)
  have f4 : WFrame w w4 := f3.trans s4.toWFrame
  have key : ∀ {v : World F}, GoodT env w4 v → Good env w v ∧ (∃ l, v.g.contactList = l ++ w.g.contactList) ∧
      (v.cst c).toiCount = (w.cst c).toiCount + 1 ∧ ∀ x < w.g.nextContact, x ≠ c → (v.cst x).toiCount = (w.cst x).toiCount := by
    intro v gv
    have hn : w4.g.nextContact = w.g.nextContact := by rw [f4.g]
    refine ⟨G4.trans gv.toGood, ?_, ?_, fun x hx hxc => ?_⟩
    · rw [← f4.g]; exact gv.list
    · rw [gv.count c (by rw [hn]; exact hlt), c4, g3.count c hlt]
    · rw [gv.count x (by rw [hn]; exact hx), o4 x hxc, g3.count x hx]
  split at e
  · cases e
    refine key (.mild G4.winv ?_)
    exact ((setCst_mild (by rfl) (by rfl) (by rfl)).trans (restore_mild _ _ _)).trans (restore_mild _ _ _)
  · simp only [Option.bind_eq_some_iff] at e
    obtain ⟨w5, e5, e6⟩ := e
    cases e6
    exact key (toiSolid_good G4.winv e5)

/-- `stepComplete` and `invDt0` are changed besides what `Good` allows. -/
structure GoodS (env : Env F) (w w' : World F) : Prop where
  winv : WInv w'
  tr : Tr env w w'
  body : ∀ b, w'.g.bodies b = { w.g.bodies b with contacts := (w'.g.bodies b).contacts }
  eq : w'.g = { w.g with bodies := w'.g.bodies, contacts := w'.g.contacts, contactList := w'.g.contactList,
                         contactCount := w'.g.contactCount, nextContact := w'.g.nextContact }
  rest : Rest { w with stepComplete := w'.stepComplete, invDt0 := w'.invDt0 } w'
  log : ∃ ev, w'.log = ev ++ w.log ∧ ∀ e ∈ ev, e.locked = w.locked
  unjoined : NoJoined w → NoJoined w'

theorem Good.toGoodS {env : Env F} {w w' : World F} (h : Good env w w') : GoodS env w w' :=
  ⟨h.winv, h.tr, h.body, h.eq, by rw [h.rest.stepComplete, h.rest.invDt0]; exact h.rest, h.log, h.unjoined⟩

theorem GoodS.trans {env : Env F} {w w' w'' : World F} (h : GoodS env w w') (h' : GoodS env w' w'') : GoodS env w w'' := by
  refine ⟨h'.winv, h.tr.trans h'.tr, fun b => ?_, by rw [h'.eq, h.eq], ⟨?_⟩, ?_, h'.unjoined ∘ h.unjoined⟩
  · have e := h'.body b
    rw [h.body b] at e
    exact e
  · rw [h'.rest.eq, h.rest.eq]
  · obtain ⟨e1, a1, a2⟩ := h.log
    obtain ⟨e2, b1, b2⟩ := h'.log
    refine ⟨e2 ++ e1, by rw [b1, a1, List.append_assoc], fun e he => ?_⟩
    rcases List.mem_append.mp he with he | he
    · rw [b2 e he, h.rest.locked]
    · exact a2 e he

theorem GoodS.set {env : Env F} {w : World F} (h : WInv w) (s : Bool) (i : F) : GoodS env w { w with stepComplete := s, invDt0 := i } :=
  ⟨h.frame rfl rfl, ⟨id, id, id⟩, fun _ => rfl, rfl, ⟨rfl⟩, ⟨[], rfl, by simp⟩, id⟩

theorem toiLoop_good {env : Env F} {step : TimeStep F} : ∀ (n : Nat) {w w' : World F}, WInv w → toiLoop env step n w = some w' → GoodS env w w' := by
  intro n
  induction n with
  | zero => intro w w' _ e; cases e
  | succ n ih =>
    intro w w' h e
    unfold toiLoop at e
    simp only [Option.bind_eq_bind, Option.bind_eq_some_iff] at e
    obtain ⟨⟨w1, best, m⟩, e1, e⟩ := e
    obtain ⟨m1, hb⟩ := toiScan_mild _ e1
    have g1 : Good env w w1 := .mild h m1
    cases best with
    | none => cases e; exact g1.toGoodS.trans (.set g1.winv true _)
    | some c =>
      dsimp only at e
      split at e
      · cases e; exact g1.toGoodS.trans (.set g1.winv true _)
      · simp only [Option.bind_eq_some_iff] at e
        obtain ⟨⟨w2, solid⟩, e2, e⟩ := e
        have hc : c ∈ w1.g.contactList := by
          rw [m1.g]
          rcases hb c rfl with h | h
          · cases h
          · exact h.1
        obtain ⟨g2, -⟩ := toiEvent_good g1.winv hc e2
        have g12 := g1.trans g2
        split at e
        · cases e; exact g12.toGoodS.trans (.set g12.winv false _)
        · exact g12.toGoodS.trans (ih g12.winv e)

theorem solveToi_good {env : Env F} {w w' : World F} {step : TimeStep F} (h : WInv w) (e : w.solveToi env step = some w') : GoodS env w w' := by
  have g0 : Good env w w.toiReset := .soft h (toiReset_soft w)
  exact g0.toGoodS.trans (toiLoop_good _ g0.winv e)

theorem stepBegin_good {env : Env F} {w w' : World F} (h : WInv w) (e : w.stepBegin env = some w') :
    ∃ v, Good env w v ∧ w' = { v with newContacts := false } ∧
      ∃ ev, v.log = ev ++ w.log ∧ ∀ e ∈ ev, ∃ fA fB, e = ⟨.filter fA fB, w.locked⟩ := by
  unfold stepBegin at e
  split at e
  · simp only [Option.bind_eq_bind, Option.bind_eq_some_iff] at e
    obtain ⟨w1, e1, e2⟩ := e
    cases e2
    refine ⟨w1, findNewContacts_good h e1, rfl, ?_⟩
    obtain ⟨w4, x1, e4, -⟩ := findNewContacts_spec h e1
    obtain ⟨ev, a1, a2⟩ := x1.log
    exact ⟨ev, by rw [e4]; exact a1, a2⟩
  · rename_i hn
    cases e
    refine ⟨w, .refl h, ?_, [], rfl, by simp⟩
    have : w.newContacts = false := by simpa using hn
    rw [← this]

theorem clearForces_mild (w : World F) : Mild w w.clearForcesAll := by
  obtain ⟨q, l⟩ := clearForcesAll_quiet w
  exact .quiet q l

theorem stepLocked_good {env : Env F} {w w' : World F} {step : TimeStep F} (h : WInv w) (e : w.stepLocked env step = some w') :
    GoodS env w w' ∧ (FiltInv w → NoJoined w') := by
  unfold stepLocked at e
  simp only [Option.bind_eq_bind, Option.bind_eq_some_iff] at e
  obtain ⟨w1, e1, w2, e2, w3, e3, e4⟩ := e
  obtain ⟨g1, n1, -⟩ := collide_good h e1
  have g2 : GoodS env w1 w2 := by
    split at e2
    · exact (solve_good g1.winv e2).toGoodS
    · cases e2; exact (Good.refl g1.winv).toGoodS
  have g3 : GoodS env w2 w3 := by
    split at e3
    · exact solveToi_good g2.winv e3
    · cases e3; exact (Good.refl g2.winv).toGoodS
  have g4 : GoodS env w3 (if step.dt > 0 then { w3 with invDt0 := step.invDt } else w3) := by
    split
    · exact .set g3.winv _ _
    · exact (Good.refl g3.winv).toGoodS
  generalize (if step.dt > 0 then { w3 with invDt0 := step.invDt } else w3) = w4 at *
  have g5 : GoodS env w4 w' := by
    cases e4
    split
    · exact (Good.mild g4.winv (clearForces_mild _)).toGoodS
    · exact (Good.refl g4.winv).toGoodS
  have gg := g2.trans (g3.trans (g4.trans g5))
  exact ⟨g1.toGoodS.trans gg, fun hf => gg.unjoined (n1 hf)⟩

/-- What a step keeps; the log: filter callbacks while looking for new contacts first, then the rest with the world locked. -/
structure Stepped (env : Env F) (w w' : World F) : Prop where
  winv : WInv w'
  tr : Tr env w w'
  body : ∀ b, w'.g.bodies b = { w.g.bodies b with contacts := (w'.g.bodies b).contacts }
  eq : w'.g = { w.g with bodies := w'.g.bodies, contacts := w'.g.contacts, contactList := w'.g.contactList,
                         contactCount := w'.g.contactCount, nextContact := w'.g.nextContact }
  rest : Rest { w with stepComplete := w'.stepComplete, invDt0 := w'.invDt0, newContacts := false, locked := false } w'
  log : ∃ early late, w'.log = late ++ early ++ w.log ∧ (∀ e ∈ late, e.locked = true) ∧ ∀ e ∈ early, ∃ fA fB, e = ⟨.filter fA fB, w.locked⟩
  unjoined : FiltInv w → NoJoined w'

theorem step_good {env : Env F} {w w' : World F} {dt : F} {vi pi : Nat} (h : WInv w) (e : w.step env dt vi pi = some w') : Stepped env w w' := by
  unfold step at e
  simp only [Option.bind_eq_bind, Option.bind_eq_some_iff] at e
  obtain ⟨w1, e1, w2, e2, e3⟩ := e
  cases e3
  obtain ⟨v, g1, hv, ev, hev1, hev2⟩ := stepBegin_good h e1
  subst hv
  have hw1 : WInv { v with newContacts := false, locked := true } := g1.winv.frame rfl rfl
  obtain ⟨g2, n2⟩ := stepLocked_good hw1 e2
  refine ⟨g2.winv.frame rfl rfl, ?_, ?_, ?_, ⟨?_⟩, ?_, ?_⟩
  · exact ⟨g2.tr.static ∘ g1.tr.static, g2.tr.filt ∘ g1.tr.filt, g2.tr.ev ∘ g1.tr.ev⟩
  · intro b
    have h2 : w2.g.bodies b = { v.g.bodies b with contacts := (w2.g.bodies b).contacts } := g2.body b
    rw [g1.body b] at h2
    exact h2
  · have h2 : w2.g = { v.g with bodies := w2.g.bodies, contacts := w2.g.contacts, contactList := w2.g.contactList, contactCount := w2.g.contactCount, nextContact := w2.g.nextContact } := g2.eq
    rw [g1.eq] at h2
    exact h2
  · have h2 := g2.rest.eq
    rw [g1.rest.eq] at h2
    rw [h2]
  · obtain ⟨ev2, b1, b2⟩ := g2.log
    refine ⟨ev, ev2, ?_, b2, hev2⟩
    show w2.log = _
    rw [b1]
    show ev2 ++ v.log = _
    rw [hev1, List.append_assoc]
  · intro hf
    exact n2 (g1.tr.filt hf)
end World
end
end B2
