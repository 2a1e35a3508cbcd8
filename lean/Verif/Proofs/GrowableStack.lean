import Verif.Model.GrowableStack
import Mathlib.Data.List.Basic

/-! Helper lemmas for the growable stack. -/
namespace B2.GStack
variable {T : Type}

/-- The contents, oldest first, and the bound kept by the inline variant. -/
def Rep (N : Nat) (s : State T) (l : List T) : Prop :=
  match s with
  | .stack array count => count ≤ N ∧ l = (List.range count).map array
  | .dynVec v => l = v

theorem map_range_upd (f : Nat → T) (n : Nat) (x : T) :
    (List.range (n + 1)).map (upd f n x) = (List.range n).map f ++ [x] := by
  rw [List.range_succ, List.map_append]
  congr 1
  · apply List.map_congr_left
    intro a ha
    exact upd_other _ _ (by have := List.mem_range.mp ha; omega)
  · simp

theorem Rep.push {N : Nat} {s : State T} {l : List T} (h : Rep N s l) (x : T) :
    ∃ s', push N s x = some s' ∧ Rep N s' (l ++ [x]) := by
  cases s with
  | stack array count =>
    obtain ⟨h1, rfl⟩ := h
    by_cases hc : count ≥ N
    · have : count = N := by omega
      subst this
      exact ⟨.dynVec ((List.range count).map array ++ [x]), by simp only [GStack.push, if_pos hc], rfl⟩
    · refine ⟨.stack (upd array count x) (count + 1), ?_, by omega, ?_⟩
      · simp only [GStack.push, if_neg hc, if_pos (Nat.lt_of_not_le hc)]
      · rw [map_range_upd]
  | dynVec v =>
    cases h
    exact ⟨_, rfl, rfl⟩

theorem Rep.pop_nil {N : Nat} {s : State T} (h : Rep N s []) : pop N s = none := by
  cases s with
  | stack array count =>
    obtain ⟨_, h2⟩ := h
    have : count = 0 := by
      have := congrArg List.length h2; simpa using this.symm
    subst this; simp [pop]
  | dynVec v => cases h; rfl

theorem Rep.pop_append {N : Nat} {s : State T} {l : List T} {x : T} (h : Rep N s (l ++ [x])) :
    ∃ s', pop N s = some (x, s') ∧ Rep N s' l := by
  cases s with
  | stack array count =>
    obtain ⟨h1, h2⟩ := h
    cases count with
    | zero => simp at h2
    | succ c =>
      rw [List.range_succ, List.map_append] at h2
      have h3 := List.append_inj_left' h2 (by simp)
      have h4 : x = array c := by simpa using List.append_inj_right' h2 (by simp)
      refine ⟨.stack array c, ?_, by omega, h3⟩
      simp only [GStack.pop, Nat.succ_sub_one, if_pos (Nat.succ_pos c), if_pos (Nat.lt_of_succ_le h1), h4]
  | dynVec v =>
    cases h
    exact ⟨.dynVec l, by simp [GStack.pop], rfl⟩

theorem Rep.count {N : Nat} {s : State T} {l : List T} (h : Rep N s l) : getCount s = l.length := by
  cases s with
  | stack array count => obtain ⟨_, rfl⟩ := h; simp [getCount]
  | dynVec v => cases h; rfl

end B2.GStack
