import Verif.Proofs.WorldPoints
import Verif.Proofs.WorldPhys

/-! Contacts passed to the continuous solver have points. -/
namespace B2
set_option linter.unusedSectionVars false
open World Spec

section
variable {F : Type} [Field F] [LinearOrder F] [IsStrictOrderedRing F] [Elem F] {env : Env F}

namespace World

theorem synchronize_firm {xf1 xf2 : Xf F} {w w' : World F} {f : Nat} (e : synchronize xf1 xf2 w f = some w') : Firm w w' := by
  unfold synchronize at e
  refine Firm.foldlM e fun i _ v v' h => ?_
  unfold synchronizeProxy at h
  simp only [Option.bind_eq_bind, Option.bind_eq_some_iff] at h
  obtain ⟨_, -, _, -, _, -, _, -, _, -, h⟩ := h
  cases h
  exact .same (by rfl) (fun _ => id) (by rfl) (by rfl) (by rfl)

theorem synchronizeFixtures_firm {w w' : World F} {b : Nat} (e : w.synchronizeFixtures b = some w') : Firm w w' := by
  unfold synchronizeFixtures at e
  dsimp only at e
  split at e
  · exact Firm.foldlM e (fun _ _ _ _ h => synchronize_firm h)
  · exact Firm.foldlM e (fun _ _ _ _ h => synchronize_firm h)

theorem solve_keep2 (hE : CallbacksTame env) (hI : ImpulsesPush env) {w w' : World F} {step : TimeStep F} (hw : Pressing w) (hd : 0 ≤ step.dtRatio) (e : w.solve env step = some w') : Keep2 w w' := by
  unfold solve at e
  simp only [Option.bind_eq_bind, Option.bind_eq_some_iff] at e
  obtain ⟨x, e1, w2, e2, e3⟩ := e
  have f2 : Firm x.1 w2 := Firm.foldlM e2 fun b _ v v' h => by
    split at h
    · cases h; exact .refl _
    split at h
    · cases h; exact .refl _
    · exact synchronizeFixtures_firm h
  exact (Keep2.firm ((solveIslands_firm hE hI hw hd e1).trans f2)).trans (findNewContacts_keep2 e3)

theorem advance_firm {w w' : World F} {b : Nat} {a : F} (e : w.advance b a = some w') : Firm w w' := by
  unfold advance at e
  simp only [Option.bind_eq_bind, Option.bind_eq_some_iff] at e
  obtain ⟨p, -, e⟩ := e
  cases e
  exact .setPhys

theorem alignSweeps_firm {w : World F} {bA bB : Nat} {x : World F × F} (e : w.alignSweeps bA bB = some x) : Firm w x.1 := by
  unfold alignSweeps at e
  dsimp only at e
  split at e
  · simp only [Option.bind_eq_bind, Option.bind_eq_some_iff] at e
    obtain ⟨s, -, e⟩ := e
    split at e
    · cases e; exact .setPhys
    · cases e
  split at e
  · simp only [Option.bind_eq_bind, Option.bind_eq_some_iff] at e
    obtain ⟨s, -, e⟩ := e
    split at e
    · cases e; exact .setPhys
    · cases e
  split at e
  · cases e; exact .refl _
  · cases e

/-- The time of a contact is only computed for a solid one. -/
theorem toiOf_cached {w : World F} {c : Nat} {x : World F × Option F} (e : w.toiOf env c = some x) :
    (∀ y, x.1.sensorContact y = w.sensorContact y) ∧ x.1.g = w.g ∧ Keep2 w x.1 ∧ (Cached w → c ∈ w.g.contactList → x.2 ≠ none → w.sensorContact c = false) := by
  unfold toiOf at e
  dsimp only at e
  split at e
  · cases e; exact ⟨fun _ => rfl, rfl, .refl _, fun _ _ h => absurd rfl h⟩
  split at e
  · cases e; exact ⟨fun _ => rfl, rfl, .refl _, fun _ _ h => absurd rfl h⟩
  split at e
  · rename_i hf
    cases e; exact ⟨fun _ => rfl, rfl, .refl _, fun h hc _ => h c hc hf⟩
  split at e
  · cases e; exact ⟨fun _ => rfl, rfl, .refl _, fun _ _ h => absurd rfl h⟩
  rename_i hsens
  rw [Bool.not_eq_true] at hsens
  simp only [Option.bind_eq_bind, Option.bind_eq_some_iff] at e
  obtain ⟨bA, -, bB, -, e⟩ := e
  split at e
  · cases e
  split at e
  · cases e
  split at e
  · cases e; exact ⟨fun _ => rfl, rfl, .refl _, fun _ _ h => absurd rfl h⟩
  split at e
  · cases e; exact ⟨fun _ => rfl, rfl, .refl _, fun _ _ h => absurd rfl h⟩
  simp only [Option.bind_eq_some_iff] at e
  obtain ⟨⟨v, a0⟩, e1, e⟩ := e
  have hv : v.g = w.g ∧ v.fattr = w.fattr ∧ v.cst = w.cst ∧ v.stepComplete = w.stepComplete ∧ v.invDt0 = w.invDt0 := by
    unfold alignSweeps at e1
    dsimp only at e1
    split at e1
    · simp only [Option.bind_eq_bind, Option.bind_eq_some_iff] at e1
      obtain ⟨s, -, e1⟩ := e1
      split at e1
      · cases e1; exact ⟨rfl, rfl, rfl, rfl, rfl⟩
      · cases e1
    split at e1
    · simp only [Option.bind_eq_bind, Option.bind_eq_some_iff] at e1
      obtain ⟨s, -, e1⟩ := e1
      split at e1
      · cases e1; exact ⟨rfl, rfl, rfl, rfl, rfl⟩
      · cases e1
    split at e1
    · cases e1; exact ⟨rfl, rfl, rfl, rfl, rfl⟩
    · cases e1
  obtain ⟨v1, v2, v3, v4, v5⟩ := hv
  have hs : ∀ y, v.sensorContact y = w.sensorContact y := fun y => by unfold sensorContact; rw [v1, v2]
  obtain ⟨r, -, e⟩ := e
  cases e
  refine ⟨hs, v1, ⟨fun h y hy h1 h2 => ?_, fun h y hy h1 => ?_, v4, fun h => ⟨fun y => ?_, by show 0 ≤ v.invDt0; rw [v5]; exact h.2⟩, .of_eq v1 v2⟩, fun _ _ _ => hsens⟩
  on_goal 3 =>
    show Pushing (upd v.cst c _ y).manifold
    by_cases hyc : y = c
    · subst hyc; rw [upd_same, v3]; exact h.1 y
    · rw [upd_other _ _ hyc, v3]; exact h.1 y
  · replace h2 : (upd v.cst c _ y).touching = true := h2
    show OneOrTwo (upd v.cst c _ y).manifold
    have k : ∀ (s : CState F), s.touching = (v.cst c).touching → s.manifold = (v.cst c).manifold → (upd v.cst c s y).touching = (w.cst y).touching ∧ (upd v.cst c s y).manifold = (w.cst y).manifold := by
      intro s q1 q2
      by_cases hyc : y = c
      · subst hyc; rw [upd_same, q1, q2, v3]; exact ⟨rfl, rfl⟩
      · rw [upd_other _ _ hyc, v3]; exact ⟨rfl, rfl⟩
    obtain ⟨k1, k2⟩ := k { v.cst c with toi := if r.1 then min (a0 + (1 - a0) * r.2) 1 else 1, toiFlag := true } rfl rfl
    rw [k2]
    rw [k1] at h2
    exact h y (by rw [← v1]; exact hy) ((hs y).symm.trans h1) h2
  · show v.sensorContact y = false
    rw [hs]
    by_cases hyc : y = c
    · subst hyc; exact hsens
    · refine h y (by rw [← v1]; exact hy) ?_
      replace h1 : (upd v.cst c _ y).toiFlag = true := h1
      rw [upd_other _ _ hyc, v3] at h1
      exact h1

theorem toiScan_cached : ∀ (l : List Nat) {w : World F} {best : Option Nat} {m : F} {x : World F × Option Nat × F}, toiScan env l w best m = some x →
    (∀ y, x.1.sensorContact y = w.sensorContact y) ∧ Keep2 w x.1 ∧
    (Cached w → (∀ c ∈ l, c ∈ w.g.contactList) → ∀ c, x.2.1 = some c → best = some c ∨ w.sensorContact c = false) := by
  intro l
  induction l with
  | nil => intro w best m x e; cases e; exact ⟨fun _ => rfl, .refl _, fun _ _ c h => .inl h⟩
  | cons a l ih =>
    intro w best m x e
    unfold toiScan at e
    simp only [Option.bind_eq_bind, Option.bind_eq_some_iff] at e
    obtain ⟨⟨v, t⟩, e1, e2⟩ := e
    obtain ⟨t1, t2, t3, t4⟩ := toiOf_cached e1
    have key : ∀ {best' : Option Nat} {m' : F}, toiScan env l v best' m' = some x → (best' = best ∨ (best' = some a ∧ t ≠ none)) →
        (∀ y, x.1.sensorContact y = w.sensorContact y) ∧ Keep2 w x.1 ∧
        (Cached w → (∀ c ∈ a :: l, c ∈ w.g.contactList) → ∀ c, x.2.1 = some c → best = some c ∨ w.sensorContact c = false) := by
      intro best' m' e hb
      obtain ⟨i1, i2, i3⟩ := ih e
      refine ⟨fun y => (i1 y).trans (t1 y), t3.trans i2, fun hc hl c hx => ?_⟩
      rcases i3 (t3.cached hc) (fun y hy => by show y ∈ v.g.contactList; rw [show v.g = w.g from t2]; exact hl y (by simp [hy])) c hx with h | h
      · rcases hb with hb | ⟨hb, ht⟩
        · exact .inl (hb ▸ h)
        · rw [hb] at h
          cases h
          exact .inr (t4 hc (hl _ (by simp)) ht)
      · exact .inr ((t1 c).symm.trans h)
    cases t with
    | none => exact key e2 (.inl rfl)
    | some alpha =>
      dsimp only at e2
      split at e2
      · exact key e2 (.inr ⟨rfl, by simp⟩)
      · exact key e2 (.inl rfl)

/-- The contacts gathered so far are flagged and have points. -/
def Gathered (x : World F × Island) : Prop := ∀ c ∈ x.2.contacts, (x.1.cst c).island = true ∧ OneOrTwo (x.1.cst c).manifold

theorem restore_firm {w : World F} {b : Nat} {s : Sweep F} : Firm w (w.restore b s) := .setPhys

theorem toiAddBody_cst (x : World F × Island) (b : Nat) : (toiAddBody x b).1.cst = x.1.cst ∧ (toiAddBody x b).2.contacts = x.2.contacts ∧ Firm x.1 (toiAddBody x b).1 :=
  ⟨rfl, rfl, .setPhys⟩

theorem toiVisit_points (hE : CallbacksTame env) {alpha : F} {body : Nat} {x x' : World F × Island} {ed : Nat × Nat} (e : toiVisit env alpha body x ed = some x') :
    Keep2 x.1 x'.1 ∧ (Gathered x → Gathered x') := by
  unfold toiVisit at e
  dsimp only at e
  split at e
  · cases e; exact ⟨.refl _, id⟩
  rename_i hisl
  split at e
  · cases e
  split at e
  · cases e; exact ⟨.refl _, id⟩
  split at e
  · cases e; exact ⟨.refl _, id⟩
  rename_i hsens
  rw [Bool.not_eq_true] at hsens hisl
  simp only [Option.bind_eq_bind, Option.bind_eq_some_iff] at e
  obtain ⟨w1, e1, w2, e2, e3⟩ := e
  have a1 : w1.cst = x.1.cst ∧ w1.sensorContact ed.1 = x.1.sensorContact ed.1 ∧ Firm x.1 w1 := by
    split at e1
    · unfold advance at e1
      simp only [Option.bind_eq_bind, Option.bind_eq_some_iff] at e1
      obtain ⟨p, -, e1⟩ := e1
      cases e1
      exact ⟨rfl, rfl, .setPhys⟩
    · cases e1; exact ⟨rfl, rfl, .refl _⟩
  obtain ⟨c1, c2, f1⟩ := a1
  obtain ⟨u1, -, u3, u4⟩ := contactUpdate_points hE e2
  have k2 : Keep2 x.1 w2 := (Keep2.firm f1).trans u1
  have fl := (contactUpdate_spec e2).2.1
  have g2 : Gathered x → ∀ c ∈ x.2.contacts, (w2.cst c).island = true ∧ OneOrTwo (w2.cst c).manifold := by
    intro hg c hc
    obtain ⟨h1, h2⟩ := hg c hc
    have hne : c ≠ ed.1 := by rintro rfl; rw [hisl] at h1; cases h1
    refine ⟨?_, u3 c hne (by rw [c1]; exact h2)⟩
    have := congrArg CFlags.island (fl.flags c)
    rw [← h1, ← c1]
    exact this
  split at e3
  · cases e3
    exact ⟨k2.trans (.firm restore_firm), fun hg c hc => g2 hg c hc⟩
  rename_i hen
  rw [not_or] at hen
  have hp : OneOrTwo (w2.cst ed.1).manifold := u4 (c2.trans hsens) (by simpa using hen.2)
  have key : ∀ (v : World F), v.cst = upd w2.cst ed.1 { w2.cst ed.1 with island := true } → ∀ isl : Island, isl.contacts = x.2.contacts ++ [ed.1] → Gathered x → Gathered (v, isl) := by
    intro v hv isl hi hg c hc
    replace hc : c ∈ isl.contacts := hc
    rw [hi] at hc
    show (v.cst c).island = true ∧ OneOrTwo (v.cst c).manifold
    rw [hv]
    by_cases hce : c = ed.1
    · subst hce; rw [upd_same]; exact ⟨rfl, hp⟩
    · rw [upd_other _ _ hce]
      rcases List.mem_append.mp hc with hc | hc
      · exact g2 hg c hc
      · exact absurd (List.mem_singleton.mp hc) hce
  have k3 : Keep2 x.1 (w2.setCst ed.1 { w2.cst ed.1 with island := true }) := k2.trans (.firm (.setCst (by rfl) id id))
  split at e3
  · cases e3
    exact ⟨k3, key _ rfl _ rfl⟩
  · cases e3
    split
    · exact ⟨k3.trans (.firm (Firm.trans .setAwake .setPhys)), key _ rfl _ rfl⟩
    · exact ⟨k3.trans (.firm .setPhys), key _ rfl _ rfl⟩

theorem toiVisits_points (hE : CallbacksTame env) {alpha : F} {body : Nat} {x x' : World F × Island} (e : toiVisits env alpha x body = some x') :
    Keep2 x.1 x'.1 ∧ (Gathered x → Gathered x') := by
  unfold toiVisits at e
  split at e
  · exact foldlM_inv (fun y => Keep2 x.1 y.1 ∧ (Gathered x → Gathered y)) e ⟨.refl _, id⟩ (fun ed _ y y' hy h => by
      obtain ⟨a, b⟩ := toiVisit_points hE h
      exact ⟨hy.1.trans a, fun g => b (hy.2 g)⟩)
  · cases e; exact ⟨.refl _, id⟩

theorem toiIsland_points (hE : CallbacksTame env) {w : World F} {c bA bB : Nat} {alpha : F} {x : World F × Island} (e : w.toiIsland env c bA bB alpha = some x) :
    Keep2 w x.1 ∧ (OneOrTwo (w.cst c).manifold → x.1.pointed x.2 = true) := by
  unfold toiIsland at e
  simp only [Option.bind_eq_bind, Option.bind_eq_some_iff] at e
  obtain ⟨x1, e1, e2⟩ := e
  obtain ⟨a1, a2⟩ := toiVisits_points hE e1
  obtain ⟨b1, b2⟩ := toiVisits_points hE e2
  refine ⟨?_, fun hp => ?_⟩
  · refine (Keep2.trans (.firm ?_) a1).trans b1
    exact Firm.trans (Firm.trans (Firm.trans .setAwake .setAwake) (Firm.trans .setPhys .setPhys)) (.setCst (by rfl) id id)
  · have g0 := b2 (a2 (fun y hy => by
      replace hy : y ∈ [c] := hy
      rw [List.mem_singleton] at hy
      subst hy
      show (upd w.cst y _ y).island = true ∧ OneOrTwo (upd w.cst y _ y).manifold
      rw [upd_same]
      exact ⟨rfl, hp⟩))
    unfold pointed
    rw [List.all_eq_true]
    intro y hy
    exact decide_eq_true (g0 y hy).2

theorem islandSolveToi_firm (hE : CallbacksTame env) {w w' : World F} {cap : Nat} {isl : Island} {step : TimeStep F} {iA iB : Int}
    (h : w.islandSolveToi env cap isl step iA iB = some w') : Firm w w' := by
  unfold islandSolveToi at h
  split at h
  · cases h
  simp only [Option.bind_eq_bind, Option.bind_eq_some_iff] at h
  obtain ⟨bA, -, bB, -, h1⟩ := h
  refine Firm.trans ?_ (report_firm hE h1)
  refine Firm.trans ?_ (writeBack_firm _ _ _)
  exact Firm.trans .setPhys .setPhys

theorem toiRelease_firm {w w' : World F} {b : Nat} (e : w.toiRelease b = some w') : Firm w w' := by
  unfold toiRelease at e
  dsimp only at e
  split at e
  · cases e; exact .setPhys
  · simp only [Option.bind_eq_bind, Option.bind_eq_some_iff] at e
    obtain ⟨w1, e1, e2⟩ := e
    cases e2
    refine Firm.trans (Firm.trans .setPhys (synchronizeFixtures_firm e1)) (Firm.foldl (fun _ _ _ => ?_) _)
    refine .setCst ?_ ?_ ?_
    · rfl
    · exact id
    · intro h; cases h

theorem toiSolid_keep2 (hE : CallbacksTame env) {w w' : World F} {step : TimeStep F} {c bA bB : Nat} {alpha : F} (e : w.toiSolid env step c bA bB alpha = some w') : Keep2 w w' := by
  unfold toiSolid at e
  simp only [Option.bind_eq_bind, Option.bind_eq_some_iff] at e
  obtain ⟨x, e1, w1, e2, w2, e3, e4⟩ := e
  exact ((toiIsland_points hE e1).1.trans (.firm ((islandSolveToi_firm hE e2).trans (Firm.foldlM e3 (fun _ _ _ _ h => toiRelease_firm h))))).trans (findNewContacts_keep2 e4)

theorem toiEvent_keep2 (hE : CallbacksTame env) {w : World F} {step : TimeStep F} {c : Nat} {alpha : F} {x : World F × Bool} (e : w.toiEvent env step c alpha = some x) : Keep2 w x.1 := by
  unfold toiEvent at e
  simp only [Option.bind_eq_bind, Option.bind_eq_some_iff] at e
  obtain ⟨bA, -, bB, -, w1, e1, w2, e2, w3, e3, e4⟩ := e
  have k3 : Keep2 w (w3.setCst c { w3.cst c with toiFlag := false, toiCount := (w3.cst c).toiCount + 1 }) :=
    ((Keep2.firm ((advance_firm e1).trans (advance_firm e2))).trans (contactUpdate_points hE e3).1).trans (.firm (.setCst (by rfl) id (fun h => by cases h)))
  split at e4
  · cases e4
    refine k3.trans (.firm (Firm.trans (Firm.trans (.setCst ?_ ?_ ?_) restore_firm) restore_firm))
    · rfl
    · exact id
    · exact id
  · simp only [Option.bind_eq_some_iff] at e4
    obtain ⟨w5, e5, e6⟩ := e4
    cases e6
    exact k3.trans (toiSolid_keep2 hE e5)

theorem turn_cached (hE : CallbacksTame env) {step : TimeStep F} {w w' : World F} {c : Nat} (t : Turn env step w c w') : Keep2 w w' := by
  cases t with
  | mk e1 _ e2 _ => exact (toiScan_cached _ e1).2.1.trans (toiEvent_keep2 hE e2)

theorem turns_cached (hE : CallbacksTame env) {step : TimeStep F} {w w' : World F} {cs : List Nat} (t : Turns env step w cs w') : Keep2 w w' := by
  induction t with
  | nil w => exact .refl _
  | cons t _ ih => exact (turn_cached hE t).trans ih

theorem toiLoop_cached (hE : CallbacksTame env) {step : TimeStep F} : ∀ (n : Nat) {w w' : World F}, toiLoop env step n w = some w' → (Solid w → Solid w') ∧ (Cached w → Cached w') ∧ (Pressing w → Pressing w') ∧ FixSame w w' := by
  intro n
  induction n with
  | zero => intro w w' e; cases e
  | succ n ih =>
    intro w w' e
    unfold toiLoop at e
    simp only [Option.bind_eq_bind, Option.bind_eq_some_iff] at e
    obtain ⟨⟨v, best, m⟩, e1, e2⟩ := e
    have k1 := (toiScan_cached _ e1).2.1
    cases best with
    | none => cases e2; exact ⟨k1.solid, k1.cached, k1.push, k1.fix.trans (.of_eq rfl rfl)⟩
    | some c =>
      dsimp only at e2
      split at e2
      · cases e2; exact ⟨k1.solid, k1.cached, k1.push, k1.fix.trans (.of_eq rfl rfl)⟩
      simp only [Option.bind_eq_some_iff] at e2
      obtain ⟨⟨w2, solid⟩, e2, e3⟩ := e2
      have k2 := k1.trans (toiEvent_keep2 hE e2)
      dsimp only at e3
      split at e3
      · cases e3; exact ⟨k2.solid, k2.cached, k2.push, k2.fix.trans (.of_eq rfl rfl)⟩
      · obtain ⟨i1, i2, i3, i4⟩ := ih e3
        exact ⟨fun h => i1 (k2.solid h), fun h => i2 (k2.cached h), fun h => i3 (k2.push h), k2.fix.trans i4⟩

theorem toiReset_cached (w : World F) : Firm w w.toiReset ∧ (w.stepComplete = true → Cached w.toiReset) := by
  unfold toiReset
  split
  · rename_i hc
    dsimp only
    have f : ∀ v : World F, Firm v (v.g.contactList.foldl (fun w c => w.setCst c { w.cst c with toiFlag := false, island := false, toiCount := 0, toi := 1 }) v) :=
      fun v => Firm.foldl (fun _ _ _ => by
        refine .setCst ?_ ?_ ?_
        · rfl
        · exact id
        · intro h; cases h) _
    refine ⟨Firm.trans (Firm.foldl (fun _ _ _ => .setPhys) _) (f _), fun _ => ?_⟩
    generalize (w.g.bodyList.foldl _ w) = v
    intro c hcl ht
    exfalso
    have hcl' := (f v).list c hcl
    have : ∀ (l : List Nat) (u : World F), (c ∈ l ∨ (u.cst c).toiFlag = false) →
        ((l.foldl (fun w c => w.setCst c { w.cst c with toiFlag := false, island := false, toiCount := 0, toi := 1 }) u).cst c).toiFlag = false := by
      intro l
      induction l with
      | nil => intro u h; rcases h with h | h; · cases h
               · exact h
      | cons a l ih =>
        intro u h
        refine ih _ ?_
        by_cases hca : c = a
        · right
          subst hca
          exact congrArg CState.toiFlag (upd_same _ _ _)
        · rcases h with h | h
          · exact .inl ((List.mem_cons.mp h).resolve_left hca)
          · right
            rw [← h]
            exact congrArg CState.toiFlag (upd_other _ _ hca)
    rw [this _ v (.inl hcl')] at ht
    cases ht
  · rename_i hc
    exact ⟨.refl _, fun h => absurd h hc⟩

/-- What is true between steps. -/
def Pts (w : World F) : Prop := Solid w ∧ (w.stepComplete = false → Cached w) ∧ Pressing w

theorem Keep2.pts {w w' : World F} (h : Keep2 w w') (hw : Pts w) : Pts w' :=
  ⟨h.solid hw.1, fun hc => h.cached (hw.2.1 (h.complete.symm.trans hc)), h.push hw.2.2⟩

theorem Pts.reset {w : World F} (h : Pts w) : Cached w.toiReset := by
  cases hc : w.stepComplete with
  | true => exact (toiReset_cached w).2 hc
  | false => exact (Keep2.firm (toiReset_cached w).1).cached (h.2.1 hc)

theorem stepBegin_keep2 {w w' : World F} (e : w.stepBegin env = some w') : Keep2 w w' := by
  unfold stepBegin at e
  split at e
  · simp only [Option.bind_eq_bind, Option.bind_eq_some_iff] at e
    obtain ⟨v, e1, e2⟩ := e
    cases e2
    exact (findNewContacts_keep2 e1).trans (.firm (.same rfl (fun _ => id) rfl rfl rfl))
  · cases e; exact .refl _

theorem solveToi_pts (hE : CallbacksTame env) {w w' : World F} {step : TimeStep F} (h : Pts w) (e : w.solveToi env step = some w') : Pts w' := by
  unfold solveToi at e
  obtain ⟨a, b, c, -⟩ := toiLoop_cached hE _ e
  exact ⟨a ((Keep2.firm (toiReset_cached w).1).solid h.1), fun _ => b h.reset, c ((toiReset_cached w).1.push h.2.2)⟩

theorem clearForcesAll_firm (w : World F) : Firm w w.clearForcesAll := by
  unfold clearForcesAll
  exact Firm.foldl (fun _ _ _ => .setPhys) _

theorem stepLocked_pts (hE : CallbacksTame env) (hI : ImpulsesPush env) {w w' : World F} {step : TimeStep F} (hd : 0 < step.dt → 0 ≤ step.dtRatio ∧ 0 ≤ step.invDt) (h : Pts w) (e : w.stepLocked env step = some w') : Pts w' := by
  unfold stepLocked at e
  simp only [Option.bind_eq_bind, Option.bind_eq_some_iff] at e
  obtain ⟨w1, e1, w2, e2, w3, e3, e4⟩ := e
  have h1 := (collide_keep2 hE e1).pts h
  have h2 : Pts w2 := by
    split at e2
    · rename_i hp; exact (solve_keep2 hE hI h1.2.2 (hd hp.2).1 e2).pts h1
    · cases e2; exact h1
  have h3 : Pts w3 := by
    split at e3
    · exact solveToi_pts hE h2 e3
    · cases e3; exact h2
  cases e4
  have h4 : Pts (if step.dt > 0 then { w3 with invDt0 := step.invDt } else w3) := by
    split
    · rename_i hp; exact ⟨h3.1, h3.2.1, h3.2.2.1, (hd hp).2⟩
    · exact h3
  generalize (if step.dt > 0 then { w3 with invDt0 := step.invDt } else w3) = w4 at h4
  split
  · exact (Keep2.firm (clearForcesAll_firm w4)).pts h4
  · exact h4

theorem stepLocked_fix (hE : CallbacksTame env) (hI : ImpulsesPush env) {w w' : World F} {step : TimeStep F} (hd : 0 < step.dt → 0 ≤ step.dtRatio) (h : Pressing w)
    (e : w.stepLocked env step = some w') : FixSame w w' := by
  unfold stepLocked at e
  simp only [Option.bind_eq_bind, Option.bind_eq_some_iff] at e
  obtain ⟨w1, e1, w2, e2, w3, e3, e4⟩ := e
  have h1 := collide_keep2 hE e1
  have h2 : FixSame w1 w2 := by
    split at e2
    · rename_i hp; exact (solve_keep2 hE hI (h1.push h) (hd hp.2) e2).fix
    · cases e2; exact .refl _
  have h3 : FixSame w2 w3 := by
    split at e3
    · unfold solveToi at e3
      exact (toiReset_cached w2).1.fix.trans (toiLoop_cached hE _ e3).2.2.2
    · cases e3; exact .refl _
  cases e4
  have h4 : FixSame w (if step.dt > 0 then { w3 with invDt0 := step.invDt } else w3) := by
    refine (h1.fix.trans (h2.trans h3)).trans ?_
    split
    · exact .of_eq rfl rfl
    · exact .refl _
  generalize (if step.dt > 0 then { w3 with invDt0 := step.invDt } else w3) = w4 at h4
  split
  · exact h4.trans (clearForcesAll_firm w4).fix
  · exact h4

theorem timeStep_pos {w : World F} {dt : F} {vi pi : Nat} (h : 0 ≤ w.invDt0) :
    0 < (w.timeStep dt vi pi).dt → 0 ≤ (w.timeStep dt vi pi).dtRatio ∧ 0 ≤ (w.timeStep dt vi pi).invDt := by
  intro hd
  replace hd : 0 < dt := hd
  refine ⟨mul_nonneg h hd.le, ?_⟩
  show 0 ≤ if dt > 0 then 1 / dt else 0
  rw [if_pos hd]
  exact (one_div_pos.mpr hd).le

theorem step_pts (hE : CallbacksTame env) (hI : ImpulsesPush env) {w w' : World F} {dt : F} {vi pi : Nat} (h : Pts w) (e : w.step env dt vi pi = some w') : Pts w' := by
  unfold step at e
  simp only [Option.bind_eq_bind, Option.bind_eq_some_iff] at e
  obtain ⟨w1, e1, w2, e2, e3⟩ := e
  cases e3
  have h1 := (stepBegin_keep2 e1).pts h
  have := stepLocked_pts hE hI (w := { w1 with locked := true }) (timeStep_pos h1.2.2.2) h1 e2
  exact this

theorem step_fix (hE : CallbacksTame env) (hI : ImpulsesPush env) {w w' : World F} {dt : F} {vi pi : Nat} (h : Pressing w) (e : w.step env dt vi pi = some w') : FixSame w w' := by
  unfold step at e
  simp only [Option.bind_eq_bind, Option.bind_eq_some_iff] at e
  obtain ⟨w1, e1, w2, e2, e3⟩ := e
  cases e3
  have h1 := stepBegin_keep2 e1
  have h2 := stepLocked_fix hE hI (w := { w1 with locked := true }) (fun hd => (timeStep_pos (h1.push h).2 hd).1) (h1.push h) e2
  exact (h1.fix.trans (show FixSame w1 { w1 with locked := true } from .of_eq rfl rfl)).trans (h2.trans (.of_eq rfl rfl))

end World
end
end B2
