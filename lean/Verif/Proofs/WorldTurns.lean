import Verif.Proofs.WorldHist

/-! The continuous solver ends. -/
namespace B2
set_option linter.unusedSectionVars false
open Spec World

section
variable {F : Type} [Field F] [LinearOrder F] [IsStrictOrderedRing F] [Elem F]

theorem World.Good.childTotal {env : Env F} {w w' : World F} (h : Good env w w') : Spec.childTotal w' = Spec.childTotal w := by
  unfold Spec.childTotal
  rw [h.bodyList, h.fixtures]
  have : ∀ b, (w'.g.bodies b).enabled = (w.g.bodies b).enabled ∧ (w'.g.bodies b).fixtures = (w.g.bodies b).fixtures := fun b => by rw [h.body b]; exact ⟨rfl, rfl⟩
  simp only [this]

theorem turn_spec {env : Env F} {step : TimeStep F} {w w' : World F} {c : Nat} (h : WInv w) (ht : Turn env step w c w') :
    Good env w w' ∧ (∃ l, w'.g.contactList = l ++ w.g.contactList) ∧ c ∈ w.g.contactList ∧ (w.cst c).toiCount ≤ 8 ∧
    (w'.cst c).toiCount = (w.cst c).toiCount + 1 ∧ ∀ x ∈ w.g.contactList, x ≠ c → (w'.cst x).toiCount = (w.cst x).toiCount := by
  cases ht with
  | mk e1 _ e2 _ =>
    obtain ⟨m1, hb⟩ := toiScan_mild _ e1
    obtain ⟨hc, hle⟩ : c ∈ w.g.contactList ∧ (w.cst c).toiCount ≤ maxSubSteps := by
      rcases hb c rfl with h | h
      · cases h
      · exact h
    have g1 : Good env w _ := .mild h m1
    obtain ⟨g2, hl, h1, h2⟩ := toiEvent_good g1.winv (by rw [m1.g]; exact hc) e2
    refine ⟨g1.trans g2, by rw [← m1.g]; exact hl, hc, hle, by rw [h1, m1.toiCount], fun x hx hxc => ?_⟩
    rw [h2 x (by rw [m1.g]; exact h.link.lt x hx) hxc, m1.toiCount]

theorem turns_spec {env : Env F} {step : TimeStep F} {w w' : World F} {cs : List Nat} (ht : Turns env step w cs w') : WInv w →
    WInv w' ∧ childTotal w' = childTotal w ∧ (∃ l, w'.g.contactList = l ++ w.g.contactList) ∧ (∀ c ∈ cs, c ∈ w'.g.contactList) ∧
    (∀ c, cs.count c ≤ 9) ∧ (∀ c ∈ w.g.contactList, cs.count c ≤ 9 - (w.cst c).toiCount) := by
  induction ht with
  | nil w => intro h; exact ⟨h, rfl, ⟨[], rfl⟩, by simp, by simp, by simp⟩
  | @cons w w1 w2 c cs t _ ih =>
    intro h
    obtain ⟨g1, hl, hc, hle, h1, h2⟩ := turn_spec h t
    obtain ⟨k1, k2, k3, k4, k5, k6⟩ := ih g1.winv
    obtain ⟨l, hl⟩ := hl
    obtain ⟨l', hl'⟩ := k3
    have hsub : ∀ x ∈ w.g.contactList, x ∈ w1.g.contactList := fun x hx => by rw [hl]; exact List.mem_append_right _ hx
    have key : ∀ x ∈ w.g.contactList, (c :: cs).count x ≤ 9 - (w.cst x).toiCount := by
      intro x hx
      rw [List.count_cons]
      by_cases hxc : c = x
      · subst hxc
        have := k6 c (hsub c hx)
        rw [h1] at this
        simp only [beq_self_eq_true, if_true]
        omega
      · have := k6 x (hsub x hx)
        rw [h2 x hx (Ne.symm hxc)] at this
        simp only [beq_iff_eq, hxc, if_false]
        omega
    refine ⟨k1, k2.trans g1.childTotal, ⟨l' ++ l, by rw [hl', hl, List.append_assoc]⟩, fun x hx => ?_, fun x => ?_, key⟩
    · rcases List.mem_cons.mp hx with rfl | hx
      · rw [hl']; exact List.mem_append_right _ (hsub _ hc)
      · exact k4 x hx
    · by_cases hxc : c = x
      · subst hxc
        have := key c hc
        omega
      · rw [List.count_cons_of_ne hxc]
        exact k5 x

theorem count_length {cs L : List Nat} {k : Nat} (h1 : ∀ c ∈ cs, c ∈ L) (h2 : ∀ c, cs.count c ≤ k) : cs.length ≤ k * L.length := by
  classical
  rw [← List.sum_toFinset_count_eq_length]
  calc ∑ a ∈ cs.toFinset, cs.count a ≤ ∑ _a ∈ cs.toFinset, k := Finset.sum_le_sum fun a _ => h2 a
    _ = cs.toFinset.card * k := by rw [Finset.sum_const, smul_eq_mul]
    _ ≤ L.length * k := by
        refine Nat.mul_le_mul_right k (le_trans (Finset.card_le_card ?_) (List.toFinset_card_le L))
        intro x hx
        rw [List.mem_toFinset] at hx ⊢
        exact h1 x hx
    _ = k * L.length := Nat.mul_comm _ _

theorem turns_bound {env : Env F} {step : TimeStep F} {w w' : World F} {cs : List Nat} (h : WInv w) (ht : Turns env step w cs w') :
    cs.length ≤ 9 * (childTotal w * childTotal w) ∧ ∀ c, cs.count c ≤ 9 := by
  obtain ⟨k1, k2, -, k4, k5, -⟩ := turns_spec ht h
  refine ⟨?_, k5⟩
  obtain ⟨S, s1, s2⟩ := live_finset k1.body
  have hb := contacts_bound k1.toGInv s1
  rw [s2] at hb
  have hb' : w'.g.contactList.length ≤ childTotal w * childTotal w := by rw [← k2]; exact hb
  exact (count_length k4 k5).trans (Nat.mul_le_mul_left 9 hb')

theorem startsToi_good {env : Env F} {w w' : World F} {dt : F} {vi pi : Nat} (h : WInv w) (hs : StartsToi env w dt vi pi w') :
    WInv w' ∧ childTotal w' = childTotal w := by
  obtain ⟨a, b, e1, e2, e3⟩ := hs
  obtain ⟨v, g1, rfl, -⟩ := stepBegin_good h e1
  have hw1 : WInv { v with newContacts := false, locked := true } := g1.winv.frame rfl rfl
  obtain ⟨g2, -⟩ := collide_good hw1 e2
  have c1 : childTotal b = childTotal w := g2.childTotal.trans g1.childTotal
  split at e3
  · have g3 := solve_good g2.winv e3
    exact ⟨g3.winv, g3.childTotal.trans c1⟩
  · cases e3; exact ⟨g2.winv, c1⟩

/-- The loop with too little fuel and the loop that panics are told apart by the turns. -/
theorem toiLoop_none {env : Env F} {step : TimeStep F} : ∀ (n : Nat) (w : World F), toiLoop env step n w = none →
    (∃ cs w', Turns env step w cs w' ∧ cs.length = n) ∨
    (∃ cs w', Turns env step w cs w' ∧ (toiScan env w'.g.contactList w' none 1 = none ∨
      ∃ w1 c m, toiScan env w'.g.contactList w' none 1 = some (w1, some c, m) ∧ ¬ (1 - 10 * epsilon < m) ∧ w1.toiEvent env step c m = none)) := by
  intro n
  induction n with
  | zero => intro w _; exact Or.inl ⟨[], w, .nil w, rfl⟩
  | succ n ih =>
    intro w e
    unfold toiLoop at e
    cases e1 : toiScan env w.g.contactList w none 1 with
    | none => exact Or.inr ⟨[], w, .nil w, Or.inl e1⟩
    | some x =>
      obtain ⟨w1, best, m⟩ := x
      rw [e1] at e
      simp only [Option.bind_eq_bind, Option.bind_some] at e
      cases best with
      | none => cases e
      | some c =>
        dsimp only at e
        split at e
        · cases e
        rename_i hm
        cases e2 : w1.toiEvent env step c m with
        | none => exact Or.inr ⟨[], w, .nil w, Or.inr ⟨w1, c, m, e1, hm, e2⟩⟩
        | some y =>
          obtain ⟨w2, solid⟩ := y
          rw [e2] at e
          simp only [Option.bind_some] at e
          split at e
          · cases e
          rename_i hs
          have t : Turn env step w c w2 := .mk e1 hm e2 hs
          rcases ih w2 e with ⟨cs, w', h1, h2⟩ | ⟨cs, w', h1, h2⟩
          · exact Or.inl ⟨c :: cs, w', .cons t h1, by simp [h2]⟩
          · exact Or.inr ⟨c :: cs, w', .cons t h1, h2⟩

/-- A turn, computed. -/
def turnOf (env : Env F) (step : TimeStep F) (w : World F) : Option (Nat × World F) :=
  match toiScan env w.g.contactList w none 1 with
  | some (w1, some c, m) =>
    if 1 - 10 * epsilon < m then none
    else match w1.toiEvent env step c m with
      | some (w2, solid) => if solid = true ∧ w2.subStepping = true then none else some (c, w2)
      | none => none
  | _ => none

theorem turnOf_sound {env : Env F} {step : TimeStep F} {w w2 : World F} {c : Nat} (e : turnOf env step w = some (c, w2)) : Turn env step w c w2 := by
  unfold turnOf at e
  split at e
  · rename_i w1 c' m e1
    split at e
    · cases e
    rename_i hm
    split at e
    · rename_i w3 solid e2
      split at e
      · cases e
      rename_i hs
      cases e
      exact .mk e1 hm e2 hs
    · cases e
  · cases e

/-- The start of the continuous phase, computed. -/
def startsOf (env : Env F) (w : World F) (dt : F) (vi pi : Nat) : Option (World F) := do
  let a ← w.stepBegin env
  let b ← World.collide env { a with locked := true }
  if b.stepComplete = true ∧ dt > 0 then b.solve env ({ a with locked := true }.timeStep dt vi pi) else some b

theorem startsOf_sound {env : Env F} {w w' : World F} {dt : F} {vi pi : Nat} (e : startsOf env w dt vi pi = some w') : StartsToi env w dt vi pi w' := by
  unfold startsOf at e
  simp only [Option.bind_eq_bind, Option.bind_eq_some_iff] at e
  obtain ⟨a, e1, b, e2, e3⟩ := e
  exact ⟨a, b, e1, e2, e3⟩

end
end B2
