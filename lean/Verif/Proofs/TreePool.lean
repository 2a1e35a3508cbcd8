import Verif.Proofs.TreeBalance

/-! The node pool: allocation and freeing. -/
namespace B2
set_option linter.unusedSectionVars false
variable {F D : Type} [LinearOrder F] [Add F] [Sub F] [Mul F] [Lit F]

/-- Exactly the nodes `used` are allocated, all others are on the free list. -/
def PoolInv (t : Tree F D) (used : List Nat) : Prop :=
  ∃ fl : List Nat, Seg (fun i => (t.nodes i).parent) t.free fl ∧ (used ++ fl).Nodup ∧
    (∀ i ∈ used ++ fl, i < t.cap) ∧ used.length + fl.length = t.cap ∧ t.count = used.length ∧
    (∀ i ∈ fl, (t.nodes i).height = -1) ∧ 0 < t.cap

theorem PoolInv.perm {t : Tree F D} {u u' : List Nat} (h : PoolInv t u) (hp : u'.Perm u) : PoolInv t u' := by
  obtain ⟨fl, h1, h2, h3, h4, h5, h6, h7⟩ := h
  refine ⟨fl, h1, (hp.append_right _).nodup_iff.mpr h2, fun i hi => h3 i ((hp.append_right _).mem_iff.mp hi),
    by rw [hp.length_eq]; exact h4, by rw [hp.length_eq]; exact h5, h6, h7⟩

theorem PoolInv.congr {t t' : Tree F D} {u : List Nat} (h : PoolInv t u) (hs : SamePool t t')
    (he : ∀ j, j ∉ u → t'.nodes j = t.nodes j) : PoolInv t' u := by
  obtain ⟨fl, h1, h2, h3, h4, h5, h6, h7⟩ := h
  obtain ⟨s1, s2, s3⟩ := hs
  have hfl : ∀ i ∈ fl, i ∉ u := by
    intro i hi hu
    rw [List.nodup_append] at h2
    exact h2.2.2 i hu i hi rfl
  refine ⟨fl, ?_, h2, by rw [s1]; exact h3, by rw [s1]; exact h4, by rw [s2]; exact h5, ?_, by rw [s1]; exact h7⟩
  · rw [s3]
    refine h1.congr fun a ha => ?_
    show (t'.nodes a).parent = _
    rw [he a (hfl a ha)]
  · intro i hi; rw [he i (hfl i hi)]; exact h6 i hi

theorem PoolInv.lt {t : Tree F D} {u : List Nat} (h : PoolInv t u) : ∀ i ∈ u, i < t.cap := by
  obtain ⟨fl, -, -, h3, -⟩ := h
  exact fun i hi => h3 i (List.mem_append.mpr (Or.inl hi))

theorem PoolInv.nodup {t : Tree F D} {u : List Nat} (h : PoolInv t u) : u.Nodup := by
  obtain ⟨fl, -, h2, -⟩ := h
  rw [List.nodup_append] at h2; exact h2.1

theorem PoolInv.length_le {t : Tree F D} {u : List Nat} (h : PoolInv t u) : u.length ≤ t.cap := by
  obtain ⟨fl, -, -, -, h4, -⟩ := h; omega

/-- A node below the capacity that is not in use has height -1. -/
theorem PoolInv.free_height {t : Tree F D} {u : List Nat} (h : PoolInv t u) :
    ∀ i, i < t.cap → i ∉ u → (t.nodes i).height = -1 := by
  obtain ⟨fl, -, h2, h3, h4, -, h6, -⟩ := h
  intro i hi hu
  by_cases hf : i ∈ fl
  · exact h6 i hf
  · exfalso
    have hnd : (i :: (u ++ fl)).Nodup := List.nodup_cons.mpr ⟨by simp [hu, hf], h2⟩
    have hsub : (i :: (u ++ fl)).toFinset ⊆ Finset.range t.cap := by
      intro a ha
      simp only [List.mem_toFinset, List.mem_cons] at ha
      rw [Finset.mem_range]
      rcases ha with rfl | ha
      · exact hi
      · exact h3 a ha
    have := Finset.card_le_card hsub
    rw [List.toFinset_card_of_nodup hnd, Finset.card_range] at this
    simp at this; omega

/-- A fresh chain of pool nodes. -/
theorem seg_chain (m : Nat → Node F D) (lo hi : Nat) (hlt : lo < hi)
    (hch : ∀ i, lo ≤ i → i < hi - 1 → (m i).parent = some (i + 1)) (hend : (m (hi - 1)).parent = none) :
    Seg (fun i => (m i).parent) (some lo) (List.range' lo (hi - lo)) := by
  obtain ⟨k, rfl⟩ : ∃ k, hi = lo + k + 1 := ⟨hi - lo - 1, by omega⟩
  induction k generalizing lo with
  | zero =>
    simp only [Nat.add_sub_cancel_left, Nat.add_zero]
    refine ⟨rfl, ?_⟩
    simpa [Seg] using hend
  | succ k ih =>
    have e : lo + (k + 1) + 1 - lo = (k + 1) + 1 := by omega
    rw [e, List.range'_succ]
    refine ⟨rfl, ?_⟩
    have h1 := hch lo (le_refl _) (by omega)
    show Seg _ (m lo).parent _
    rw [h1]
    have := ih (lo + 1) (by omega) (fun i h1 h2 => hch i (by omega) (by omega)) (by
      have e2 : lo + 1 + k + 1 - 1 = lo + (k + 1) + 1 - 1 := by omega
      rw [e2]; exact hend)
    have e3 : lo + 1 + k + 1 - (lo + 1) = k + 1 := by omega
    rw [e3] at this
    exact this

theorem grow_spec {t : Tree F D} {u : List Nat} (h : PoolInv t u) :
    ∃ t', t.grow = some t' ∧ PoolInv t' u ∧ t'.free ≠ none ∧ t'.root = t.root ∧ t.cap ≤ t'.cap ∧
      (∀ j, j < t.cap → t'.nodes j = t.nodes j) ∧
      (t'.cap = t.cap ∨ (u.length = t.cap ∧ t'.cap = t.cap * 2)) := by
  have h0 := h
  obtain ⟨fl, h1, h2, h3, h4, h5, h6, h7⟩ := h
  unfold Tree.grow
  cases fl with
  | cons a fl =>
    have : t.free = some a := h1.1
    rw [if_neg (by rw [this]; simp)]
    exact ⟨t, rfl, h0, by rw [this]; simp, rfl, le_refl _, fun _ _ => rfl, Or.inl rfl⟩
  | nil =>
    have hfree : t.free = none := h1
    simp only [List.length_nil, Nat.add_zero] at h4
    have hcnt : t.count = t.cap := by omega
    rw [if_pos (by rw [hfree]; rfl), if_pos hcnt]
    simp only []
    rw [if_pos (by omega)]
    refine ⟨_, rfl, ⟨List.range' t.cap (t.cap * 2 - t.cap), ?_, ?_, ?_, ?_, ?_, ?_, ?_⟩, ?_, rfl, by show _ ≤ t.cap * 2; omega, ?_, Or.inr ⟨h4, rfl⟩⟩
    · show Seg _ (some t.count) _
      rw [hcnt]
      apply seg_chain _ t.cap (t.cap * 2) (by omega)
      · intro i hi1 hi2
        show (if _ then _ else _ : Node F D).parent = _
        rw [if_pos ⟨hi1, hi2⟩]
      · show (if _ then _ else _ : Node F D).parent = _
        rw [if_neg (by omega), if_pos rfl]
    · rw [List.nodup_append]
      rw [List.append_nil] at h2
      refine ⟨h2, List.nodup_range' .., ?_⟩
      intro a ha b hb e
      subst e
      have := h3 a (by simp [ha])
      rw [List.mem_range'_1] at hb
      omega
    · intro i hi
      show i < t.cap * 2
      rw [List.mem_append, List.mem_range'_1] at hi
      rcases hi with hi | hi
      · have := h3 i (by simp [hi]); omega
      · omega
    · show _ = t.cap * 2
      rw [List.length_range']; omega
    · exact h5
    · intro i hi
      rw [List.mem_range'_1] at hi
      show (if _ then _ else _ : Node F D).height = _
      by_cases hlast : i = t.cap * 2 - 1
      · rw [if_neg (by omega), if_pos hlast]
      · rw [if_pos (by omega)]
    · show 0 < t.cap * 2; omega
    · simp
    · intro j hj
      show (if _ then _ else _ : Node F D) = _
      rw [if_neg (by omega), if_neg (by omega), if_pos hj]

theorem allocate_spec {t : Tree F D} {u : List Nat} (h : PoolInv t u) :
    ∃ t' n, t.allocateNode = some (t', n) ∧ n ∉ u ∧ PoolInv t' (n :: u) ∧ t'.root = t.root ∧
      t.cap ≤ t'.cap ∧ (∀ j ∈ u, t'.nodes j = t.nodes j) ∧
      ((t'.nodes n).parent = none ∧ (t'.nodes n).child1 = none ∧ (t'.nodes n).child2 = none ∧
        (t'.nodes n).height = 0 ∧ (t'.nodes n).userData = none ∧ (t'.nodes n).moved = false) ∧
      (t'.cap = t.cap ∨ (u.length = t.cap ∧ t'.cap = t.cap * 2)) := by
  obtain ⟨t1, e1, p1, f1, r1, c1, n1, k1⟩ := grow_spec h
  have hlt := h.lt
  obtain ⟨fl, h1, h2, h3, h4, h5, h6, h7⟩ := p1
  cases fl with
  | nil => exact absurd h1 f1
  | cons n fl =>
    obtain ⟨hfree, hs⟩ := h1
    have bn : n < t1.cap := h3 n (by simp)
    unfold Tree.allocateNode
    rw [e1]
    simp only [Option.bind_some, Tree.peel, hfree, Option.bind_eq_bind, Tree.get_of_lt bn, Tree.modify, if_pos bn]
    have hnu : n ∉ u := by
      intro hu
      rw [List.nodup_append] at h2
      exact h2.2.2 n hu n (by simp) rfl
    have hperm : (n :: u ++ fl).Perm (u ++ n :: fl) := List.perm_middle.symm
    have hnfl : n ∉ fl := by
      rw [List.nodup_append] at h2
      exact (List.nodup_cons.mp h2.2.1).1
    refine ⟨_, n, rfl, hnu, ⟨fl, ?_, hperm.nodup_iff.mpr h2, fun i hi => h3 i (hperm.mem_iff.mp hi), ?_, ?_, ?_, h7⟩,
      r1, c1, ?_, by simp, k1⟩
    · refine hs.congr fun a ha => ?_
      show (upd _ _ _ a : Node F D).parent = _
      rw [upd_other _ _ (by rintro rfl; exact hnfl ha)]
    · show (n :: u).length + fl.length = t1.cap
      simp only [List.length_cons] at h4 ⊢; omega
    · show t1.count + 1 = _
      simp [h5]
    · intro i hi
      show (upd _ _ _ i : Node F D).height = _
      rw [upd_other _ _ (by rintro rfl; exact hnfl hi)]
      exact h6 i (by simp [hi])
    · intro j hj
      show upd _ _ _ j = _
      rw [upd_other _ _ (by rintro rfl; exact hnu hj), n1 j (hlt j hj)]

theorem free_spec {t : Tree F D} {u : List Nat} {n : Nat} (h : PoolInv t (n :: u)) :
    ∃ t', t.freeNode n = some t' ∧ PoolInv t' u ∧ t'.root = t.root ∧ t'.cap = t.cap ∧
      (∀ j, j ≠ n → t'.nodes j = t.nodes j) := by
  obtain ⟨fl, h1, h2, h3, h4, h5, h6, h7⟩ := h
  have bn : n < t.cap := h3 n (by simp)
  unfold Tree.freeNode
  rw [if_pos ⟨bn, by rw [h5]; simp⟩]
  have hperm : (u ++ n :: fl).Perm (n :: u ++ fl) := List.perm_middle
  have hnfl : n ∉ fl := by
    rw [List.cons_append, List.nodup_cons] at h2
    exact fun h => h2.1 (by simp [h])
  refine ⟨_, rfl, ⟨n :: fl, ?_, hperm.nodup_iff.mpr h2, fun i hi => h3 i (hperm.mem_iff.mp hi), ?_, ?_, ?_, h7⟩,
    rfl, rfl, ?_⟩
  · refine ⟨rfl, ?_⟩
    show Seg _ (upd _ _ _ n : Node F D).parent _
    rw [upd_same]
    refine h1.congr fun a ha => ?_
    show (upd _ _ _ a : Node F D).parent = _
    rw [upd_other _ _ (by rintro rfl; exact hnfl ha)]
  · show u.length + (n :: fl).length = t.cap
    simp only [List.length_cons] at h4 ⊢; omega
  · show t.count - 1 = u.length
    rw [h5]; simp
  · intro i hi
    show (upd _ _ _ i : Node F D).height = _
    rcases List.mem_cons.mp hi with rfl | hi'
    · simp
    · rw [upd_other _ _ (by rintro rfl; exact hnfl hi')]; exact h6 i hi'
  · intro j hj; exact upd_other _ _ hj

end B2
