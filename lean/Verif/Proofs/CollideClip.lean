import Verif.Proofs.CollideWorld

/-!
# Lemmas about clipping an incident edge to a reference edge
-/
namespace B2
open Spec
set_option linter.unusedSectionVars false
section
variable {F : Type} [Field F] [LinearOrder F] [IsStrictOrderedRing F]

/-- The id of a vertex that is cut off. -/
def cutId (v0 : ClipVertex F) (idx : Nat) : ContactId := ⟨⟨UInt8.ofNat idx, v0.id.cf.indexB, 0, 1⟩⟩

theorem clip_cases (v0 v1 : ClipVertex F) (n : Vec2 F) (o : F) (idx : Nat) :
    (dot n v0.v ≤ o ∧ dot n v1.v ≤ o ∧ clipSegmentToLine v0 v1 n o idx = some [v0, v1]) ∨
    (∃ a c, ((a = v0 ∧ dot n v0.v < o ∧ o < dot n v1.v) ∨ (a = v1 ∧ dot n v1.v < o ∧ o < dot n v0.v)) ∧
      clipSegmentToLine v0 v1 n o idx = some [a, c] ∧ c.id = cutId v0 idx ∧ dot n c.v = o ∧
      ∃ t, 0 < t ∧ t < 1 ∧ c.v = onLine v0.v v1.v t) ∨
    (((dot n v0.v = o ∧ o < dot n v1.v) ∨ (o < dot n v0.v ∧ dot n v1.v = o) ∨ (o < dot n v0.v ∧ o < dot n v1.v)) ∧
      ∃ l, clipSegmentToLine v0 v1 n o idx = some l ∧ l.length ≠ 2) := by
  have hlin : ∀ t, dot n (onLine v0.v v1.v t) = dot n v0.v + t * (dot n v1.v - dot n v0.v) := by
    intro t; simp only [dot, onLine]; ring
  have hcut : ∀ t : F, v0.v + t * (v1.v - v0.v) = onLine v0.v v1.v t := by
    intro t; ext <;> simp [onLine]
  simp only [clipSegmentToLine, hcut]
  generalize hd0 : dot n v0.v = d0 at *
  generalize hd1 : dot n v1.v = d1 at *
  rcases le_or_gt d0 o with h0 | h0 <;> rcases le_or_gt d1 o with h1 | h1
  · left
    have hn : ¬ ((d0 - o) * (d1 - o) < 0) := not_lt.mpr (mul_nonneg_of_nonpos_of_nonpos (by linarith) (by linarith))
    exact ⟨h0, h1, by simp [sub_nonpos, h0, h1, hn, clipPush]⟩
  · rcases lt_or_eq_of_le h0 with h0' | h0'
    · right; left
      have hn : (d0 - o) * (d1 - o) < 0 := mul_neg_of_neg_of_pos (by linarith) (by linarith)
      have hden : d0 - o - (d1 - o) < 0 := by linarith
      refine ⟨v0, ⟨onLine v0.v v1.v ((d0 - o) / (d0 - o - (d1 - o))), cutId v0 idx⟩, .inl ⟨rfl, h0', h1⟩,
        by simp [sub_nonpos, h0, not_le.mpr h1, hn, clipPush, cutId], rfl, ?_, _, ?_, ?_, rfl⟩
      · simp only [hlin]
        have : (d0 - o) / (d0 - o - (d1 - o)) * (d1 - d0) = -(d0 - o) := by
          rw [div_mul_eq_mul_div, div_eq_iff hden.ne]; ring
        rw [this]; ring
      · exact div_pos_of_neg_of_neg (by linarith) hden
      · rw [div_lt_one_of_neg hden]; linarith
    · right; right
      subst h0'
      exact ⟨.inl ⟨rfl, h1⟩, [v0], by simp [not_le.mpr h1, clipPush], by simp⟩
  · rcases lt_or_eq_of_le h1 with h1' | h1'
    · right; left
      have hn : (d0 - o) * (d1 - o) < 0 := mul_neg_of_pos_of_neg (by linarith) (by linarith)
      have hden : 0 < d0 - o - (d1 - o) := by linarith
      refine ⟨v1, ⟨onLine v0.v v1.v ((d0 - o) / (d0 - o - (d1 - o))), cutId v0 idx⟩, .inr ⟨rfl, h1', h0⟩,
        by simp [sub_nonpos, h1, not_le.mpr h0, hn, clipPush, cutId], rfl, ?_, _, ?_, ?_, rfl⟩
      · simp only [hlin]
        have : (d0 - o) / (d0 - o - (d1 - o)) * (d1 - d0) = -(d0 - o) := by
          rw [div_mul_eq_mul_div, div_eq_iff hden.ne']; ring
        rw [this]; ring
      · exact div_pos (by linarith) hden
      · rw [div_lt_one hden]; linarith
    · right; right
      subst h1'
      exact ⟨.inr (.inl ⟨h0, rfl⟩), [v1], by simp [not_le.mpr h0, clipPush], by simp⟩
  · right; right
    have hn : ¬ ((d0 - o) * (d1 - o) < 0) := not_lt.mpr (mul_nonneg (by linarith) (by linarith))
    exact ⟨.inr (.inr ⟨h0, h1⟩), [], by simp [sub_nonpos, not_le.mpr h0, not_le.mpr h1, hn], by simp⟩

/-- Two vertices are left: points of the segment behind the line, with these ids. -/
theorem clip_two {v0 v1 a b : ClipVertex F} {n : Vec2 F} {o : F} {idx : Nat} (h : clipSegmentToLine v0 v1 n o idx = some [a, b]) :
    Hull [v0.v, v1.v] a.v ∧ Hull [v0.v, v1.v] b.v ∧ dot n a.v ≤ o ∧ dot n b.v ≤ o ∧
    ((a = v0 ∧ b = v1) ∨ ((a = v0 ∨ a = v1) ∧ b.id = cutId v0 idx)) := by
  have h0 : Hull [v0.v, v1.v] v0.v := .vertex (by simp)
  have h1 : Hull [v0.v, v1.v] v1.v := .vertex (by simp)
  rcases clip_cases v0 v1 n o idx with ⟨a1, a2, a3⟩ | ⟨x, c, hx, a3, a4, a5, t, t0, t1, a6⟩ | ⟨-, l, a3, a4⟩
  · rw [a3] at h
    simp only [Option.some.injEq, List.cons.injEq, and_true] at h
    obtain ⟨rfl, rfl⟩ := h
    exact ⟨h0, h1, a1, a2, .inl ⟨rfl, rfl⟩⟩
  · rw [a3] at h
    simp only [Option.some.injEq, List.cons.injEq, and_true] at h
    obtain ⟨rfl, rfl⟩ := h
    have hc : Hull [v0.v, v1.v] c.v := by rw [a6]; exact .between h0 h1 t0.le t1.le
    rcases hx with ⟨rfl, hx, -⟩ | ⟨rfl, hx, -⟩
    · exact ⟨h0, hc, hx.le, a5.le, .inr ⟨.inl rfl, a4⟩⟩
    · exact ⟨h1, hc, hx.le, a5.le, .inr ⟨.inr rfl, a4⟩⟩
  · rw [a3] at h
    simp only [Option.some.injEq] at h
    subst h; simp at a4

theorem hull_sub {vs ws : List (Vec2 F)} (h : ∀ v ∈ vs, Hull ws v) {x : Vec2 F} (hx : Hull vs x) : Hull ws x := by
  induction hx with
  | vertex hv => exact h _ hv
  | between _ _ t0 t1 iha ihb => exact .between iha ihb t0 t1

theorem hull_pair_sub {ws : List (Vec2 F)} {a b x : Vec2 F} (ha : Hull ws a) (hb : Hull ws b) (hx : Hull [a, b] x) : Hull ws x :=
  hull_sub (fun v hv => by
    simp only [List.mem_cons, List.not_mem_nil, or_false] at hv
    rcases hv with rfl | rfl
    · exact ha
    · exact hb) hx

/-- Both clips: total, and what is left. -/
theorem clipTwice_spec (c0 c1 : ClipVertex F) (n1 : Vec2 F) (o1 : F) (i1 : Nat) (n2 : Vec2 F) (o2 : F) (i2 : Nat) :
    ∃ r, clipTwice c0 c1 n1 o1 i1 n2 o2 i2 = some r ∧ ∀ c d, r = some (c, d) →
      Hull [c0.v, c1.v] c.v ∧ Hull [c0.v, c1.v] d.v ∧ dot n2 c.v ≤ o2 ∧ dot n2 d.v ≤ o2 ∧ dot n1 c.v ≤ o1 ∧ dot n1 d.v ≤ o1 ∧
      ∃ a b : ClipVertex F, ((a = c0 ∧ b = c1) ∨ ((a = c0 ∨ a = c1) ∧ b.id = cutId c0 i1)) ∧
        ((c = a ∧ d = b) ∨ ((c = a ∨ c = b) ∧ d.id = cutId a i2)) := by
  unfold clipTwice
  have hsome : ∀ (v0 v1 : ClipVertex F) n o i, ∃ l, clipSegmentToLine v0 v1 n o i = some l := by
    intro v0 v1 n o i
    rcases clip_cases v0 v1 n o i with ⟨-, -, h⟩ | ⟨_, _, -, h, -⟩ | ⟨-, l, h, -⟩ <;> exact ⟨_, h⟩
  obtain ⟨l1, h1⟩ := hsome c0 c1 n1 o1 i1
  rw [h1, Option.bind_some]
  match l1, h1 with
  | [], _ => exact ⟨none, rfl, fun c d h => by cases h⟩
  | [_], _ => exact ⟨none, rfl, fun c d h => by cases h⟩
  | _ :: _ :: _ :: _, _ => exact ⟨none, rfl, fun c d h => by cases h⟩
  | [a, b], h1 =>
    obtain ⟨a1, a2, a3, a4, a5⟩ := clip_two h1
    obtain ⟨l2, h2⟩ := hsome a b n2 o2 i2
    simp only [h2, Option.bind_some]
    match l2, h2 with
    | [], _ => exact ⟨none, rfl, fun c d h => by cases h⟩
    | [_], _ => exact ⟨none, rfl, fun c d h => by cases h⟩
    | _ :: _ :: _ :: _, _ => exact ⟨none, rfl, fun c d h => by cases h⟩
    | [c, d], h2 =>
      refine ⟨some (c, d), rfl, ?_⟩
      rintro c' d' ⟨⟩
      obtain ⟨b1, b2, b3, b4, b5⟩ := clip_two h2
      have hle : ∀ x, Hull [a.v, b.v] x → dot n1 x ≤ o1 := by
        intro x hx
        obtain ⟨t, t0, t1, rfl⟩ := hull_pair hx
        have : dot n1 (onLine a.v b.v t) = (1 - t) * dot n1 a.v + t * dot n1 b.v := by simp only [dot, onLine]; ring
        rw [this]; nlinarith
      exact ⟨hull_pair_sub a1 a2 b1, hull_pair_sub a1 a2 b2, b3, b4, hle _ b1, hle _ b2, a, b, a5, b5⟩

end
end B2
