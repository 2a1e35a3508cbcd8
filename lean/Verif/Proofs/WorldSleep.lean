import Verif.Proofs.WorldGood

/-! Sleep management of islands. -/
namespace B2
set_option linter.unusedSectionVars false
open World

section
variable {F : Type} [Field F] [LinearOrder F] [IsStrictOrderedRing F] [Elem F]

/-- The timers after `sleepTimers`. -/
def timed (w : World F) (h : F) (b : Nat) : Phys F :=
  if w.typeOf b = .static then w.phys b
  else { w.phys b with sleepTime := if restless (w.phys b) then 0 else (w.phys b).sleepTime + h }

theorem sleepTimers_spec (h : F) : ∀ (l : List Nat) (w : World F) (m : F), l.Nodup →
    WFrame w (sleepTimers h l w m).1 ∧ (∀ b ∉ l, (sleepTimers h l w m).1.phys b = w.phys b) ∧
    (∀ b ∈ l, (sleepTimers h l w m).1.phys b = timed w h b) ∧
    (∀ T : F, 0 < T → (T ≤ (sleepTimers h l w m).2 ↔ T ≤ m ∧ ∀ b ∈ l, w.typeOf b ≠ .static →
      restless (w.phys b) = false ∧ T ≤ (w.phys b).sleepTime + h)) := by
  intro l
  induction l with
  | nil => intro w m _; exact ⟨.refl _, fun _ _ => rfl, by simp, fun T _ => by simp [sleepTimers]⟩
  | cons b l ih =>
    intro w m hn
    obtain ⟨hb, hl⟩ := List.nodup_cons.mp hn
    have step : ∀ (p : Phys F) (m' : F), p = timed w h b → sleepTimers h (b :: l) w m = sleepTimers h l (w.setPhys b p) m' →
        w.typeOf b ≠ .static → (∀ T : F, 0 < T → (T ≤ m' ↔ T ≤ m ∧ restless (w.phys b) = false ∧ T ≤ (w.phys b).sleepTime + h)) →
        WFrame w (sleepTimers h (b :: l) w m).1 ∧ (∀ x ∉ b :: l, (sleepTimers h (b :: l) w m).1.phys x = w.phys x) ∧
        (∀ x ∈ b :: l, (sleepTimers h (b :: l) w m).1.phys x = timed w h x) ∧
        (∀ T : F, 0 < T → (T ≤ (sleepTimers h (b :: l) w m).2 ↔ T ≤ m ∧ ∀ x ∈ b :: l, w.typeOf x ≠ .static →
          restless (w.phys x) = false ∧ T ≤ (w.phys x).sleepTime + h)) := by
      intro p m' hp he hs hm
      rw [he]
      obtain ⟨k1, k2, k3, k4⟩ := ih (w.setPhys b p) m' hl
      have hother : ∀ x ∈ l, (w.setPhys b p).phys x = w.phys x := fun x hx => upd_other _ _ (by rintro rfl; exact hb hx)
      have htype : ∀ x, (w.setPhys b p).typeOf x = w.typeOf x := fun _ => rfl
      refine ⟨WFrame.trans ⟨rfl⟩ k1, fun x hx => ?_, fun x hx => ?_, fun T hT => ?_⟩
      · rw [List.mem_cons, not_or] at hx
        rw [k2 x hx.2]
        exact upd_other _ _ hx.1
      · rcases List.mem_cons.mp hx with rfl | hx
        · rw [k2 x hb, ← hp]
          exact upd_same _ _ _
        · rw [k3 x hx]
          unfold timed
          rw [htype, hother x hx]
      · rw [k4 T hT, hm T hT]
        constructor
        · rintro ⟨⟨a1, a2⟩, a3⟩
          refine ⟨a1, fun x hx hxs => ?_⟩
          rcases List.mem_cons.mp hx with rfl | hx
          · exact a2
          · have := a3 x hx hxs
            rwa [hother x hx] at this
        · rintro ⟨a1, a2⟩
          refine ⟨⟨a1, a2 b (List.mem_cons_self ..) hs⟩, fun x hx hxs => ?_⟩
          rw [hother x hx]
          exact a2 x (List.mem_cons_of_mem _ hx) hxs
    by_cases hs : w.typeOf b = .static
    · have he : sleepTimers h (b :: l) w m = sleepTimers h l w m := by
        rw [sleepTimers, if_pos hs]
      rw [he]
      obtain ⟨k1, k2, k3, k4⟩ := ih w m hl
      refine ⟨k1, fun x hx => k2 x (fun h => hx (List.mem_cons_of_mem _ h)), fun x hx => ?_, fun T hT => ?_⟩
      · rcases List.mem_cons.mp hx with rfl | hx
        · rw [k2 x hb, timed, if_pos hs]
        · exact k3 x hx
      · rw [k4 T hT]
        refine and_congr_right fun _ => ⟨fun a x hx hxs => ?_, fun a x hx hxs => a x (List.mem_cons_of_mem _ hx) hxs⟩
        rcases List.mem_cons.mp hx with rfl | hx
        · exact absurd hs hxs
        · exact a x hx hxs
    · cases hr : restless (w.phys b)
      · refine step { w.phys b with sleepTime := (w.phys b).sleepTime + h } (min m ((w.phys b).sleepTime + h)) ?_ ?_ hs ?_
        · unfold timed; rw [if_neg hs, hr]; rfl
        · rw [sleepTimers, if_neg hs]
          dsimp only
          rw [hr]; rfl
        · intro T _
          rw [le_min_iff]
          simp [hr]
      · refine step { w.phys b with sleepTime := 0 } 0 ?_ ?_ hs ?_
        · unfold timed; rw [if_neg hs, hr]; rfl
        · rw [sleepTimers, if_neg hs]
          dsimp only
          rw [hr]; rfl
        · intro T hT
          simp [hr, not_le.mpr hT]

theorem sleepAll_spec : ∀ (l : List Nat) (w : World F), l.Nodup →
    (∀ b ∉ l, (l.foldl (fun w b => w.setAwake b false) w).phys b = w.phys b) ∧
    (∀ b ∈ l, (l.foldl (fun w b => w.setAwake b false) w).phys b = (w.phys b).setAwake (w.typeOf b) false) := by
  intro l
  induction l with
  | nil => intro w _; exact ⟨fun _ _ => rfl, by simp⟩
  | cons b l ih =>
    intro w hn
    obtain ⟨hb, hl⟩ := List.nodup_cons.mp hn
    obtain ⟨k1, k2⟩ := ih (w.setAwake b false) hl
    refine ⟨fun x hx => ?_, fun x hx => ?_⟩
    · rw [List.mem_cons, not_or] at hx
      rw [List.foldl_cons, k1 x hx.2]
      exact upd_other _ _ hx.1
    · rw [List.foldl_cons]
      rcases List.mem_cons.mp hx with rfl | hx'
      · rw [k1 x hb]
        exact upd_same _ _ _
      · rw [k2 x hx']
        have : (w.setAwake b false).phys x = w.phys x := upd_other _ _ (by rintro rfl; exact hb hx')
        rw [this]; rfl

theorem restless_false {p : Phys F} : restless p = false ↔ p.autoSleep = true ∧ p.w * p.w ≤ angularSleepTolerance * angularSleepTolerance ∧
    dot p.v p.v ≤ linearSleepTolerance * linearSleepTolerance := by
  unfold restless
  simp only [Bool.or_eq_false_iff, Bool.not_eq_false', decide_eq_false_iff_not, gt_iff_lt, not_lt, and_assoc]

theorem timeToSleep_pos : (0 : F) < timeToSleep := by unfold timeToSleep; norm_num
theorem timeToSleep_max : (timeToSleep : F) ≤ maxFlt := by unfold timeToSleep maxFlt; norm_num

/-- Everything about `sleepIsland`. -/
theorem sleepIsland_spec {w : World F} {h : F} {l : List Nat} {solved : Bool} (hn : l.Nodup) :
    (∀ b ∉ l, (w.sleepIsland h l solved).phys b = w.phys b) ∧
    (((∀ b ∈ l, w.typeOf b ≠ .static → restless (w.phys b) = false ∧ timeToSleep ≤ (w.phys b).sleepTime + h) ∧ solved = true) →
      ∀ b ∈ l, (w.sleepIsland h l solved).phys b = (timed w h b).setAwake (w.typeOf b) false) ∧
    (¬ ((∀ b ∈ l, w.typeOf b ≠ .static → restless (w.phys b) = false ∧ timeToSleep ≤ (w.phys b).sleepTime + h) ∧ solved = true) →
      ∀ b ∈ l, (w.sleepIsland h l solved).phys b = timed w h b) := by
  obtain ⟨k1, k2, k3, k4⟩ := sleepTimers_spec h l w maxFlt hn
  obtain ⟨s1, s2⟩ := sleepAll_spec l (sleepTimers h l w maxFlt).1 hn
  have hk : timeToSleep ≤ (sleepTimers h l w maxFlt).2 ↔ ∀ b ∈ l, w.typeOf b ≠ .static →
      restless (w.phys b) = false ∧ timeToSleep ≤ (w.phys b).sleepTime + h := by
    rw [k4 _ timeToSleep_pos]
    exact and_iff_right timeToSleep_max
  unfold sleepIsland
  dsimp only
  split
  · rename_i hc
    refine ⟨fun b hb => by rw [s1 b hb, k2 b hb], fun _ b hb => ?_, fun hno => absurd ⟨hk.mp hc.1, hc.2⟩ hno⟩
    rw [s2 b hb, k3 b hb, k1.typeOf]
  · rename_i hc
    exact ⟨k2, fun hy => absurd ⟨hk.mpr hy.1, hy.2⟩ hc, fun _ => k3⟩

end
end B2
