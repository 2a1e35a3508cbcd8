import Verif.Proofs.Shapes

/-!
# Gift wrapping
-/
namespace B2
open Spec
set_option linter.unusedSectionVars false
section
variable {F : Type} [Field F] [LinearOrder F] [IsStrictOrderedRing F]

theorem turn_eq (a b p : Vec2 F) : cross (b - a) (p - a) = turn a b p := rfl

/-- The point `b` of the list is exposed: some linear functional is smaller there than at all other points. -/
def Exposed (ps : List (Vec2 F)) (b : Nat) : Prop :=
  ∃ e : Vec2 F, ∀ j, j < ps.length → j ≠ b → 0 < dot e (psGet ps j - psGet ps b)

/-- Three vectors on the positive side of a functional. -/
theorem plucker (e u v w : Vec2 F) :
    cross u w * dot e v = cross u v * dot e w + cross v w * dot e u := by
  simp only [cross, dot]; ring

theorem small_eps (l : List (F × F)) (h : ∀ ab ∈ l, 0 < ab.1 ∨ (ab.1 = 0 ∧ 0 < ab.2)) :
    ∃ ε0 : F, 0 < ε0 ∧ ∀ ε, 0 < ε → ε ≤ ε0 → ∀ ab ∈ l, 0 < ab.1 + ε * ab.2 := by
  induction l with
  | nil => exact ⟨1, one_pos, fun _ _ _ ab hab => by cases hab⟩
  | cons ab l ih =>
    obtain ⟨e0, he0, hl⟩ := ih fun x hx => h x (by simp [hx])
    obtain ⟨a, b⟩ := ab
    have hab := h (a, b) (by simp)
    simp only at hab
    rcases hab with ha | ⟨ha, hb⟩
    · rcases le_or_gt 0 b with hb | hb
      · refine ⟨e0, he0, fun ε h0 h1 x hx => ?_⟩
        rcases List.mem_cons.mp hx with rfl | hx
        · have := mul_nonneg h0.le hb; simp only; linarith
        · exact hl ε h0 h1 x hx
      · refine ⟨min e0 (a / (2 * -b)), lt_min he0 (div_pos ha (by linarith)), fun ε h0 h1 x hx => ?_⟩
        rcases List.mem_cons.mp hx with rfl | hx
        · have h2 := h1.trans (min_le_right _ _)
          rw [le_div_iff₀ (by linarith)] at h2
          simp only; nlinarith
        · exact hl ε h0 (h1.trans (min_le_left _ _)) x hx
    · refine ⟨e0, he0, fun ε h0 h1 x hx => ?_⟩
      rcases List.mem_cons.mp hx with rfl | hx
      · have := mul_pos h0 hb; simp only; linarith
      · exact hl ε h0 h1 x hx

/-- Exposure from a half-open half-plane with boundary direction `g`. -/
theorem exposed_of (ps : List (Vec2 F)) (b : Nat) (f g : Vec2 F)
    (h : ∀ j, j < ps.length → j ≠ b → 0 < dot f (psGet ps j - psGet ps b) ∨
      (dot f (psGet ps j - psGet ps b) = 0 ∧ 0 < dot g (psGet ps j - psGet ps b))) : Exposed ps b := by
  obtain ⟨ε, hε, hl⟩ := small_eps (((List.range ps.length).filter (· ≠ b)).map fun j =>
    (dot f (psGet ps j - psGet ps b), dot g (psGet ps j - psGet ps b))) (by
      intro ab hab
      simp only [List.mem_map, List.mem_filter, List.mem_range] at hab
      obtain ⟨j, ⟨hj, hb⟩, rfl⟩ := hab
      exact h j hj (by simpa using hb))
  refine ⟨f + ε * g, fun j hj hb => ?_⟩
  have := hl ε hε (le_refl _) (dot f (psGet ps j - psGet ps b), dot g (psGet ps j - psGet ps b)) (by
    simp only [List.mem_map, List.mem_filter, List.mem_range]
    exact ⟨j, ⟨hj, by simpa using hb⟩, rfl⟩)
  refine lt_of_lt_of_eq this ?_
  simp only [dot, Vec2.add_x, Vec2.add_y, Vec2.smul_x, Vec2.smul_y]; ring

/-- The points of a list are pairwise different. -/
def Distinct (ps : List (Vec2 F)) : Prop := ∀ i j, i < ps.length → j < ps.length → psGet ps i = psGet ps j → i = j

/-- `a → b` is a hull edge: all points are on its left, those on its line reach no further than `b`. -/
structure IsEdge (ps : List (Vec2 F)) (a b : Nat) : Prop where
  lt : b < ps.length
  ne : b ≠ a
  left : ∀ j, j < ps.length → 0 ≤ cross (psGet ps b - psGet ps a) (psGet ps j - psGet ps a)
  far : ∀ j, j < ps.length → cross (psGet ps b - psGet ps a) (psGet ps j - psGet ps a) = 0 →
    (psGet ps j - psGet ps a).lengthSquared ≤ (psGet ps b - psGet ps a).lengthSquared

/-- What the inner loop knows after looking at the indices in `S`. -/
def WrapInv (ps : List (Vec2 F)) (ih ie : Nat) (S : Nat → Prop) : Prop :=
  S ie ∧ ((ie = ih ∧ ∀ j, S j → j = ih) ∨
    (ie ≠ ih ∧ ∀ j, S j → 0 ≤ cross (psGet ps ie - psGet ps ih) (psGet ps j - psGet ps ih) ∧
      (cross (psGet ps ie - psGet ps ih) (psGet ps j - psGet ps ih) = 0 →
        (psGet ps j - psGet ps ih).lengthSquared ≤ (psGet ps ie - psGet ps ih).lengthSquared)))

theorem cross_swap (u v : Vec2 F) : cross u v = -cross v u := by simp only [cross]; ring

theorem cross_self (u : Vec2 F) : cross u u = 0 := by simp only [cross]; ring

theorem lenSq_nonneg (u : Vec2 F) : 0 ≤ u.lengthSquared := by
  simp only [Vec2.lengthSquared]; nlinarith [mul_self_nonneg u.x, mul_self_nonneg u.y]

theorem wrapStep_inv {ps : List (Vec2 F)} {ih ie j : Nat} {S : Nat → Prop} {e : Vec2 F}
    (he : ∀ k, k < ps.length → k ≠ ih → 0 < dot e (psGet ps k - psGet ps ih)) (hS : ∀ k, S k → k < ps.length)
    (hj : j < ps.length) (h : WrapInv ps ih ie S) : WrapInv ps ih (wrapStep ps ih ie j) (fun k => S k ∨ k = j) := by
  obtain ⟨hie, h⟩ := h
  unfold wrapStep
  rcases h with ⟨h1, h2⟩ | ⟨h1, h2⟩
  · rw [if_pos h1]
    refine ⟨Or.inr rfl, ?_⟩
    by_cases hji : j = ih
    · left; exact ⟨hji, fun k hk => by rcases hk with hk | hk; exacts [h2 k hk, hk.trans hji]⟩
    · right
      refine ⟨hji, fun k hk => ?_⟩
      rcases hk with hk | hk
      · rw [h2 k hk]
        have hz : (psGet ps ih - psGet ps ih : Vec2 F) = ⟨0, 0⟩ := by ext <;> simp
        rw [hz]
        refine ⟨by simp [cross], fun _ => ?_⟩
        have := lenSq_nonneg (psGet ps j - psGet ps ih)
        simpa [Vec2.lengthSquared] using this
      · rw [hk]; exact ⟨by rw [cross_self], fun _ => le_refl _⟩
  · rw [if_neg h1]
    simp only
    have hEi := he ie (hS _ hie) h1
    by_cases hji : j = ih
    · have hz : (psGet ps j - psGet ps ih : Vec2 F) = ⟨0, 0⟩ := by rw [hji]; ext <;> simp
      have hc : cross (psGet ps ie - psGet ps ih) (psGet ps j - psGet ps ih) = 0 := by rw [hz]; simp [cross]
      have hl : ¬ (psGet ps j - psGet ps ih).lengthSquared > (psGet ps ie - psGet ps ih).lengthSquared := by
        rw [hz]; have := lenSq_nonneg (psGet ps ie - psGet ps ih)
        simpa [Vec2.lengthSquared] using this
      rw [if_neg (fun hc => hl hc.2), if_neg (by rw [hc]; exact lt_irrefl _)]
      refine ⟨Or.inl hie, Or.inr ⟨h1, fun k hk => ?_⟩⟩
      rcases hk with hk | rfl
      · exact h2 k hk
      · exact ⟨hc.ge, fun _ => not_lt.mp hl⟩
    · have hEj := he j hj hji
      have pl : ∀ k, cross (psGet ps j - psGet ps ih) (psGet ps k - psGet ps ih) * dot e (psGet ps ie - psGet ps ih) =
          cross (psGet ps j - psGet ps ih) (psGet ps ie - psGet ps ih) * dot e (psGet ps k - psGet ps ih) +
          cross (psGet ps ie - psGet ps ih) (psGet ps k - psGet ps ih) * dot e (psGet ps j - psGet ps ih) :=
        fun k => plucker _ _ _ _
      have hEk : ∀ k, S k → k ≠ ih → 0 < dot e (psGet ps k - psGet ps ih) := fun k hk hki => he k (hS k hk) hki
      have hz : ∀ k, k = ih → (psGet ps k - psGet ps ih : Vec2 F) = ⟨0, 0⟩ := by
        rintro k rfl; ext <;> simp
      by_cases hc : cross (psGet ps ie - psGet ps ih) (psGet ps j - psGet ps ih) < 0
      · have hcn : ¬ (cross (psGet ps ie - psGet ps ih) (psGet ps j - psGet ps ih) = 0 ∧
          (psGet ps j - psGet ps ih).lengthSquared > (psGet ps ie - psGet ps ih).lengthSquared) :=
          fun hh => absurd hh.1 (ne_of_lt hc)
        rw [if_neg hcn, if_pos hc]
        refine ⟨Or.inr rfl, Or.inr ⟨hji, fun k hk => ?_⟩⟩
        rcases hk with hk | rfl
        · by_cases hki : k = ih
          · rw [hz k hki]
            refine ⟨by simp [cross], fun _ => ?_⟩
            have := lenSq_nonneg (psGet ps j - psGet ps ih)
            simpa [Vec2.lengthSquared] using this
          · have h3 : 0 < cross (psGet ps j - psGet ps ih) (psGet ps ie - psGet ps ih) := by
              rw [cross_swap]; linarith
            have h4 : 0 < cross (psGet ps j - psGet ps ih) (psGet ps k - psGet ps ih) * dot e (psGet ps ie - psGet ps ih) := by
              rw [pl k]
              have := mul_pos h3 (hEk k hk hki)
              have := mul_nonneg (h2 k hk).1 hEj.le
              linarith
            have h5 := (mul_pos_iff_of_pos_right hEi).mp h4
            exact ⟨h5.le, fun h6 => absurd h6 (ne_of_gt h5)⟩
        · exact ⟨by rw [cross_self], fun _ => le_refl _⟩
      · by_cases hcc : cross (psGet ps ie - psGet ps ih) (psGet ps j - psGet ps ih) = 0 ∧
          (psGet ps j - psGet ps ih).lengthSquared > (psGet ps ie - psGet ps ih).lengthSquared
        · rw [if_pos hcc]
          refine ⟨Or.inr rfl, Or.inr ⟨hji, fun k hk => ?_⟩⟩
          rcases hk with hk | rfl
          · have h3 : cross (psGet ps j - psGet ps ih) (psGet ps ie - psGet ps ih) = 0 := by
              rw [cross_swap, hcc.1, neg_zero]
            have h4 := pl k
            rw [h3, zero_mul, zero_add] at h4
            have h5 : 0 ≤ cross (psGet ps j - psGet ps ih) (psGet ps k - psGet ps ih) := by
              have := mul_nonneg (h2 k hk).1 hEj.le
              rw [← h4] at this
              exact nonneg_of_mul_nonneg_left this hEi
            refine ⟨h5, fun h6 => ?_⟩
            rw [h6, zero_mul] at h4
            have h7 : cross (psGet ps ie - psGet ps ih) (psGet ps k - psGet ps ih) = 0 := by
              rcases mul_eq_zero.mp h4.symm with h | h
              · exact h
              · exact absurd h (ne_of_gt hEj)
            exact ((h2 k hk).2 h7).trans hcc.2.le
          · exact ⟨by rw [cross_self], fun _ => le_refl _⟩
        · rw [if_neg hcc, if_neg hc]
          refine ⟨Or.inl hie, Or.inr ⟨h1, fun k hk => ?_⟩⟩
          rcases hk with hk | rfl
          · exact h2 k hk
          · refine ⟨not_lt.mp hc, fun h6 => ?_⟩
            by_contra h7
            exact hcc ⟨h6, not_le.mp h7⟩

theorem wrapFold_inv {ps : List (Vec2 F)} {ih : Nat} {e : Vec2 F}
    (he : ∀ k, k < ps.length → k ≠ ih → 0 < dot e (psGet ps k - psGet ps ih)) (l : List Nat)
    (hl : ∀ j ∈ l, j < ps.length) {ie : Nat} {S : Nat → Prop} (hS : ∀ k, S k → k < ps.length)
    (h : WrapInv ps ih ie S) : WrapInv ps ih (l.foldl (wrapStep ps ih) ie) (fun k => S k ∨ k ∈ l) := by
  induction l generalizing ie S with
  | nil => simpa using h
  | cons j l ih' =>
    have h1 := wrapStep_inv he hS (hl j (by simp)) h
    have h2 := ih' (fun k hk => hl k (by simp [hk])) (S := fun k => S k ∨ k = j)
      (by rintro k (hk | rfl); exacts [hS k hk, hl _ (by simp)]) h1
    simp only [List.foldl_cons]
    have : (fun k => S k ∨ k ∈ j :: l) = fun k => (S k ∨ k = j) ∨ k ∈ l := by
      funext k; simp only [List.mem_cons, or_assoc]
    rw [this]; exact h2

/-- The inner loop finds a hull edge from an exposed point, and its other end is exposed. -/
theorem wrapNext_edge {ps : List (Vec2 F)} {ih : Nat} (hn : 2 ≤ ps.length) (hx : Exposed ps ih) :
    IsEdge ps ih (wrapNext ps ih) := by
  obtain ⟨e, he⟩ := hx
  have h0 : WrapInv ps ih 0 (fun k => k = 0) := by
    refine ⟨rfl, ?_⟩
    by_cases h : 0 = ih
    · left; exact ⟨h, fun j hj => hj.trans h⟩
    · right; refine ⟨h, fun j hj => ?_⟩
      rw [hj]; exact ⟨by rw [cross_self], fun _ => le_refl _⟩
  obtain ⟨h1, h2⟩ := wrapFold_inv he (List.range' 1 (ps.length - 1)) (by
    intro j hj; rw [List.mem_range'_1] at hj; omega) (fun k hk => by omega) h0
  have hall : ∀ j, j < ps.length → j = 0 ∨ j ∈ List.range' 1 (ps.length - 1) := by
    intro j hj; rw [List.mem_range'_1]; omega
  change (wrapNext ps ih = 0 ∨ wrapNext ps ih ∈ _) at h1
  have hlt : wrapNext ps ih < ps.length := by
    rcases h1 with h1 | h1
    · omega
    · rw [List.mem_range'_1] at h1; omega
  rcases h2 with ⟨h3, h4⟩ | ⟨h3, h4⟩
  · exfalso
    have a := h4 0 (hall 0 (by omega))
    have b := h4 1 (hall 1 (by omega))
    omega
  · exact ⟨hlt, h3, fun j hj => (h4 j (hall j hj)).1, fun j hj => (h4 j (hall j hj)).2⟩

/-- A vector with no cross product with `d ≠ 0` is a multiple of `d`. -/
theorem parallel {d v : Vec2 F} (hd : d.lengthSquared ≠ 0) (h : cross d v = 0) :
    ∃ μ : F, v = μ * d ∧ dot d v = μ * d.lengthSquared := by
  refine ⟨dot d v / d.lengthSquared, ?_, by field_simp⟩
  simp only [Vec2.lengthSquared, cross] at *
  ext
  · simp only [Vec2.smul_x, dot]; rw [div_mul_eq_mul_div, eq_div_iff hd]; linear_combination (-d.y) * h
  · simp only [Vec2.smul_y, dot]; rw [div_mul_eq_mul_div, eq_div_iff hd]; linear_combination d.x * h

theorem lenSq_ne {u v : Vec2 F} (h : u ≠ v) : (u - v).lengthSquared ≠ 0 := by
  intro h0
  simp only [Vec2.lengthSquared, Vec2.sub_x, Vec2.sub_y] at h0
  apply h
  have hx := mul_self_eq_zero.mp (le_antisymm (by nlinarith [mul_self_nonneg (u.y - v.y)]) (mul_self_nonneg (u.x - v.x)))
  have hy := mul_self_eq_zero.mp (le_antisymm (by nlinarith [mul_self_nonneg (u.x - v.x)]) (mul_self_nonneg (u.y - v.y)))
  ext <;> linarith

/-- On a hull edge from an exposed point, a point on the line of the edge is between its ends. -/
theorem between_of_edge {ps : List (Vec2 F)} (hd : Distinct ps) {a b j : Nat} (ha : a < ps.length) (hx : Exposed ps a)
    (hE : IsEdge ps a b) (hj : j < ps.length) (h : turn (psGet ps a) (psGet ps b) (psGet ps j) = 0) (hjb : j ≠ b) :
    ∃ μ : F, 0 ≤ μ ∧ μ < 1 ∧ psGet ps j - psGet ps a = μ * (psGet ps b - psGet ps a) ∧ (j ≠ a → 0 < μ) := by
  obtain ⟨e, he⟩ := hx
  rw [← turn_eq] at h
  have hne : psGet ps b ≠ psGet ps a := fun hc => hE.ne (hd _ _ hE.lt ha hc)
  have hD := lenSq_ne hne
  have hDp : 0 < (psGet ps b - psGet ps a).lengthSquared := lt_of_le_of_ne (lenSq_nonneg _) (Ne.symm hD)
  obtain ⟨μ, h1, -⟩ := parallel hD h
  have hEb := he b hE.lt hE.ne
  have hpos : j ≠ a → 0 < μ := by
    intro hja
    have := he j hj hja
    rw [h1] at this
    have h2 : dot e (μ * (psGet ps b - psGet ps a)) = μ * dot e (psGet ps b - psGet ps a) := by
      simp only [dot, Vec2.smul_x, Vec2.smul_y]; ring
    rw [h2] at this
    exact (mul_pos_iff_of_pos_right hEb).mp this
  have hnn : 0 ≤ μ := by
    by_cases hja : j = a
    · rw [hja] at h1
      by_contra hc; push Not at hc
      have h2 : (psGet ps a - psGet ps a : Vec2 F).lengthSquared = μ * μ * (psGet ps b - psGet ps a).lengthSquared := by
        rw [h1]; simp only [Vec2.lengthSquared, Vec2.smul_x, Vec2.smul_y]; ring
      have h3 : (psGet ps a - psGet ps a : Vec2 F).lengthSquared = 0 := by simp [Vec2.lengthSquared]
      rw [h3] at h2
      nlinarith [mul_pos (mul_pos_of_neg_of_neg hc hc) hDp]
    · exact (hpos hja).le
  refine ⟨μ, hnn, ?_, h1, hpos⟩
  have hf := hE.far j hj h
  have h2 : (psGet ps j - psGet ps a : Vec2 F).lengthSquared = μ * μ * (psGet ps b - psGet ps a).lengthSquared := by
    rw [h1]; simp only [Vec2.lengthSquared, Vec2.smul_x, Vec2.smul_y]; ring
  rw [h2] at hf
  have hle : μ ≤ 1 := by
    by_contra hc; push Not at hc
    have : 1 < μ * μ := by nlinarith
    nlinarith
  refine lt_of_le_of_ne hle ?_
  intro h3
  rw [h3] at h1
  apply hjb
  apply hd _ _ hj hE.lt
  have hx := congrArg Vec2.x h1
  have hy := congrArg Vec2.y h1
  simp only [Vec2.sub_x, Vec2.sub_y, Vec2.smul_x, Vec2.smul_y] at hx hy
  ext <;> linarith

theorem edge_exposed {ps : List (Vec2 F)} (hd : Distinct ps) {a b : Nat} (ha : a < ps.length) (hx : Exposed ps a)
    (hE : IsEdge ps a b) : Exposed ps b := by
  refine exposed_of ps b (crossSV 1 (psGet ps b - psGet ps a)) (-(psGet ps b - psGet ps a)) fun j hj hjb => ?_
  have hc : dot (crossSV 1 (psGet ps b - psGet ps a)) (psGet ps j - psGet ps b) =
      cross (psGet ps b - psGet ps a) (psGet ps j - psGet ps a) := by
    simp only [dot, crossSV, cross, Vec2.sub_x, Vec2.sub_y]; ring
  rw [hc]
  rcases lt_or_eq_of_le (hE.left j hj) with h | h
  · left; exact h
  · right
    refine ⟨h.symm, ?_⟩
    obtain ⟨μ, h1, h2, h3, -⟩ := between_of_edge hd ha hx hE hj h.symm hjb
    have hne : psGet ps b ≠ psGet ps a := fun hc => hE.ne (hd _ _ hE.lt ha hc)
    have hDp : 0 < (psGet ps b - psGet ps a).lengthSquared := lt_of_le_of_ne (lenSq_nonneg _) (Ne.symm (lenSq_ne hne))
    have hX := congrArg Vec2.x h3
    have hY := congrArg Vec2.y h3
    simp only [Vec2.sub_x, Vec2.sub_y, Vec2.smul_x, Vec2.smul_y] at hX hY
    have : dot (-(psGet ps b - psGet ps a)) (psGet ps j - psGet ps b) = (1 - μ) * (psGet ps b - psGet ps a).lengthSquared := by
      simp only [dot, Vec2.lengthSquared, Vec2.neg_x, Vec2.neg_y, Vec2.sub_x, Vec2.sub_y]
      linear_combination (-((psGet ps b).x - (psGet ps a).x)) * hX - ((psGet ps b).y - (psGet ps a).y) * hY
    rw [this]
    exact mul_pos (by linarith) hDp

/-- An exposed point is not strictly between two points of the list. -/
theorem exposed_not_between {ps : List (Vec2 F)} {a b c : Nat} (hx : Exposed ps b) (ha : a < ps.length) (hc : c < ps.length)
    (hab : a ≠ b) (hcb : c ≠ b) {μ : F} (h0 : 0 < μ) (h1 : μ < 1)
    (h : psGet ps b - psGet ps a = μ * (psGet ps c - psGet ps a)) : False := by
  obtain ⟨e, he⟩ := hx
  have k1 := he a ha hab
  have k2 := he c hc hcb
  have hX := congrArg Vec2.x h
  have hY := congrArg Vec2.y h
  simp only [Vec2.sub_x, Vec2.sub_y, Vec2.smul_x, Vec2.smul_y, dot] at hX hY k1 k2
  have : (1 - μ) * (e.x * ((psGet ps a).x - (psGet ps b).x) + e.y * ((psGet ps a).y - (psGet ps b).y)) +
      μ * (e.x * ((psGet ps c).x - (psGet ps b).x) + e.y * ((psGet ps c).y - (psGet ps b).y)) = 0 := by
    linear_combination (-e.x) * hX - e.y * hY
  have p1 := mul_pos (sub_pos.mpr h1) k1
  have p2 := mul_pos h0 k2
  linarith

/-- A point has only one predecessor on the hull. -/
theorem edge_inj {ps : List (Vec2 F)} (hd : Distinct ps) {a b v : Nat} (ha : a < ps.length) (hb : b < ps.length)
    (hxa : Exposed ps a) (hxb : Exposed ps b) (hA : IsEdge ps a v) (hB : IsEdge ps b v) : a = b := by
  by_contra hab
  have h1 := hA.left b hb
  have h2 := hB.left a ha
  have h3 : cross (psGet ps v - psGet ps b) (psGet ps a - psGet ps b) =
      -cross (psGet ps v - psGet ps a) (psGet ps b - psGet ps a) := by
    simp only [cross, Vec2.sub_x, Vec2.sub_y]; ring
  have h4 : cross (psGet ps v - psGet ps a) (psGet ps b - psGet ps a) = 0 := by rw [h3] at h2; linarith
  obtain ⟨μ, k1, k2, k3, k4⟩ := between_of_edge hd ha hxa hA hb h4 (Ne.symm hB.ne)
  exact exposed_not_between hxb ha hA.lt hab hB.ne (k4 (Ne.symm hab)) k2 k3

/-- The start of the wrapping is exposed. -/
theorem rightMost_spec (ps : List (Vec2 F)) (hn : 1 ≤ ps.length) :
    rightMost ps < ps.length ∧ ∀ j, j < ps.length → (psGet ps j).x < (psGet ps (rightMost ps)).x ∨
      ((psGet ps j).x = (psGet ps (rightMost ps)).x ∧ (psGet ps (rightMost ps)).y ≤ (psGet ps j).y) := by
  have key : ∀ (l : List Nat) (st : Nat × F) (S : Nat → Prop), (∀ j ∈ l, j < ps.length) →
      (st.1 < ps.length ∧ st.2 = (psGet ps st.1).x ∧ ∀ j, S j → (psGet ps j).x < (psGet ps st.1).x ∨
        ((psGet ps j).x = (psGet ps st.1).x ∧ (psGet ps st.1).y ≤ (psGet ps j).y)) →
      let r := l.foldl (fun (st : Nat × F) i =>
        let x := (psGet ps i).x
        if x > st.2 ∨ (x = st.2 ∧ (psGet ps i).y < (psGet ps st.1).y) then (i, x) else st) st
      r.1 < ps.length ∧ ∀ j, (S j ∨ j ∈ l) → (psGet ps j).x < (psGet ps r.1).x ∨
        ((psGet ps j).x = (psGet ps r.1).x ∧ (psGet ps r.1).y ≤ (psGet ps j).y) := by
    intro l
    induction l with
    | nil => intro st S _ h; exact ⟨h.1, fun j hj => h.2.2 j (by simpa using hj)⟩
    | cons i l ih =>
      intro st S hl h
      obtain ⟨h1, h2, h3⟩ := h
      have := ih (if (psGet ps i).x > st.2 ∨ ((psGet ps i).x = st.2 ∧ (psGet ps i).y < (psGet ps st.1).y) then
        (i, (psGet ps i).x) else st) (fun j => S j ∨ j = i) (fun j hj => hl j (by simp [hj])) (by
          split
          · rename_i hc
            refine ⟨hl i (by simp), rfl, fun j hj => ?_⟩
            simp only
            rw [h2] at hc
            rcases hj with hj | rfl
            · rcases h3 j hj with h4 | ⟨h4, h5⟩
              · rcases hc with hc | ⟨hc, -⟩
                · left; exact h4.trans hc
                · left; rw [hc]; exact h4
              · rcases hc with hc | ⟨hc, hc'⟩
                · left; rw [h4]; exact hc
                · right; exact ⟨h4.trans hc.symm, hc'.le.trans h5⟩
            · right; exact ⟨rfl, le_refl _⟩
          · rename_i hc
            push Not at hc
            refine ⟨h1, h2, fun j hj => ?_⟩
            rcases hj with hj | rfl
            · exact h3 j hj
            · rw [h2] at hc
              rcases lt_or_eq_of_le hc.1 with h4 | h4
              · left; exact h4
              · right; exact ⟨h4, hc.2 h4⟩)
      simp only [List.foldl_cons]
      refine ⟨this.1, fun j hj => this.2 j ?_⟩
      simp only [List.mem_cons] at hj
      tauto
  have h := key (List.range' 1 (ps.length - 1)) (0, (psGet ps 0).x) (fun j => j = 0) (by
    intro j hj; rw [List.mem_range'_1] at hj; omega) ⟨by omega, rfl, fun j hj => by rw [hj]; right; exact ⟨rfl, le_refl _⟩⟩
  refine ⟨h.1, fun j hj => h.2 j ?_⟩
  rw [List.mem_range'_1]; omega

theorem rightMost_exposed {ps : List (Vec2 F)} (hd : Distinct ps) (hn : 1 ≤ ps.length) : Exposed ps (rightMost ps) := by
  obtain ⟨h1, h2⟩ := rightMost_spec ps hn
  refine exposed_of ps _ ⟨-1, 0⟩ ⟨0, 1⟩ fun j hj hne => ?_
  simp only [dot, Vec2.sub_x, Vec2.sub_y]
  rcases h2 j hj with h | ⟨h, h'⟩
  · left; linarith
  · right
    refine ⟨by rw [h]; ring, ?_⟩
    have : (psGet ps (rightMost ps)).y ≠ (psGet ps j).y := fun hy => hne (hd _ _ hj h1 (Vec2.ext h hy.symm))
    have := lt_of_le_of_ne h' this
    linarith

/-- A path along hull edges. -/
def EdgePath (ps : List (Vec2 F)) (l : List Nat) : Prop := ∀ i a b, l[i]? = some a → l[i + 1]? = some b → IsEdge ps a b

/-- The outer loop terminates and returns a closed path of hull edges. -/
theorem wrapLoop_spec {ps : List (Vec2 F)} (hd : Distinct ps) (hn : 2 ≤ ps.length) {i0 : Nat} (fuel : Nat)
    (hull : List Nat) (ih : Nat) (hfuel : ps.length ≤ fuel + hull.length)
    (hnd : (hull ++ [ih]).Nodup) (hhead : (hull ++ [ih])[0]? = some i0)
    (hx : ∀ k ∈ hull ++ [ih], k < ps.length ∧ Exposed ps k) (hp : EdgePath ps (hull ++ [ih])) :
    ∃ r, wrapLoop ps i0 fuel hull ih = some r ∧ r.Nodup ∧ r[0]? = some i0 ∧ (∀ k ∈ r, k < ps.length ∧ Exposed ps k) ∧
      EdgePath ps r ∧ ∃ z, r.getLast? = some z ∧ IsEdge ps z i0 := by
  induction fuel generalizing hull ih with
  | zero =>
    exfalso
    have h1 : (hull ++ [ih]).length ≤ ps.length := by
      have hsub : (hull ++ [ih]) ⊆ List.range ps.length := fun k hk => List.mem_range.mpr (hx k hk).1
      have := (List.subperm_of_subset hnd hsub).length_le
      simpa using this
    simp at h1; omega
  | succ fuel IH =>
    obtain ⟨hlt, hxi⟩ := hx ih (by simp)
    have hE := wrapNext_edge hn hxi
    simp only [wrapLoop]
    by_cases he : wrapNext ps ih = i0
    · rw [if_pos he]
      exact ⟨_, rfl, hnd, hhead, hx, hp, ih, by simp, by rw [← he]; exact hE⟩
    · rw [if_neg he]
      have hxe := edge_exposed hd hlt hxi hE
      have hfresh : wrapNext ps ih ∉ hull ++ [ih] := by
        intro hmem
        obtain ⟨j, hj⟩ := List.mem_iff_getElem?.mp hmem
        have hj0 : j ≠ 0 := by
          rintro rfl; rw [hhead] at hj; exact he (by simpa using hj.symm)
        obtain ⟨m, rfl⟩ : ∃ m, j = m + 1 := ⟨j - 1, by omega⟩
        have hjl : m + 1 < (hull ++ [ih]).length := (List.getElem?_eq_some_iff.mp hj).1
        obtain ⟨a, ha⟩ : ∃ a, (hull ++ [ih])[m]? = some a := ⟨_, List.getElem?_eq_getElem (by omega)⟩
        have hEa := hp m a _ ha hj
        have hmema : a ∈ hull ++ [ih] := List.mem_of_getElem? ha
        obtain ⟨hal, hxa⟩ := hx a hmema
        have heq : a = ih := edge_inj hd hal hlt hxa hxi hEa hE
        have hah : a ∈ hull := by
          have hm : m < hull.length := by simp at hjl; omega
          rw [List.getElem?_append_left hm] at ha
          exact List.mem_of_getElem? ha
        rw [heq] at hah
        rw [List.nodup_append] at hnd
        exact hnd.2.2 ih hah ih (by simp) rfl
      apply IH
      · simp; omega
      · rw [List.nodup_append]
        exact ⟨hnd, by simp, fun a ha b hb => by simp at hb; rw [hb]; rintro rfl; exact hfresh ha⟩
      · rw [List.getElem?_append_left (by simp)]; exact hhead
      · intro k hk
        rw [List.mem_append] at hk
        rcases hk with hk | hk
        · exact hx k hk
        · simp at hk; rw [hk]; exact ⟨hE.lt, hxe⟩
      · intro i a b ha hb
        have hlen : (hull ++ [ih]).length = hull.length + 1 := by simp
        rcases Nat.lt_or_ge (i + 1) (hull.length + 1) with h | h
        · rw [List.getElem?_append_left (by omega)] at ha hb
          exact hp i a b ha hb
        · have hi : i + 1 = hull.length + 1 := by
            have := (List.getElem?_eq_some_iff.mp hb).1
            simp at this; omega
          rw [hi, ← hlen, List.getElem?_append_right (le_refl _)] at hb
          simp at hb
          have hi' : i = hull.length := by omega
          rw [hi', List.getElem?_append_left (by omega), List.getElem?_append_right (le_refl _)] at ha
          simp at ha
          rw [← ha, ← hb]; exact hE

/-- The wrapping started at the right-most point. -/
theorem wrap_spec {ps : List (Vec2 F)} (hd : Distinct ps) (hn : 2 ≤ ps.length) (h8 : ps.length ≤ 8) :
    ∃ r, wrapLoop ps (rightMost ps) maxPolygonVertices [] (rightMost ps) = some r ∧ r.Nodup ∧ r ≠ [] ∧
      (∀ k ∈ r, k < ps.length ∧ Exposed ps k) ∧
      ∀ i a b, r[i]? = some a → r[(i + 1) % r.length]? = some b → IsEdge ps a b := by
  have hx := rightMost_exposed hd (by omega)
  have hl := (rightMost_spec ps (by omega)).1
  obtain ⟨r, h1, h2, h3, h4, h5, z, h6, h7⟩ := wrapLoop_spec hd hn (i0 := rightMost ps) maxPolygonVertices []
    (rightMost ps) (by simp [maxPolygonVertices]; omega) (by simp) (by simp) (by simp; exact ⟨hl, hx⟩)
    (by intro i a b _ hb; simp at hb)
  have hne : r ≠ [] := by rintro rfl; simp at h3
  refine ⟨r, h1, h2, hne, h4, fun i a b ha hb => ?_⟩
  have hi := (List.getElem?_eq_some_iff.mp ha).1
  rcases Nat.lt_or_ge (i + 1) r.length with h | h
  · rw [Nat.mod_eq_of_lt h] at hb; exact h5 i a b ha hb
  · have hie : i + 1 = r.length := by omega
    rw [hie, Nat.mod_self, h3] at hb
    rw [List.getLast?_eq_getElem?, show r.length - 1 = i by omega, ha] at h6
    simp at hb h6
    rw [← hb, h6]; exact h7

end
end B2
