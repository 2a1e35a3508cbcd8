import Verif.Spec.BroadPhase
import Verif.Proofs.TreeFinal

/-! The broad-phase: buffers, the invariant along histories, and what `update_pairs` reports. -/
namespace B2
set_option linter.unusedSectionVars false
open Spec

namespace Buf
variable {α : Type}

/-- The filled part of the buffer is the list `l`. -/
structure Is (b : Buf α) (l : List α) : Prop where
  count : b.count = l.length
  le : b.count ≤ b.cap
  data : ∀ i (h : i < l.length), b.data i = l[i]

theorem Is.get {b : Buf α} {l : List α} (h : b.Is l) {i : Nat} (hi : i < l.length) : b.get i = some l[i] := by
  have h1 := h.count
  have h2 := h.le
  rw [Buf.get, if_pos (by omega), h.data i hi]

theorem Is.push {b : Buf α} {l : List α} (h : b.Is l) (d x : α) {n : Nat} (hn : b.cap < n) :
    ∃ b', b.push d n x = some b' ∧ b'.Is (l ++ [x]) ∧ b.cap ≤ b'.cap := by
  have h1 := h.count
  have h2 := h.le
  by_cases hc : b.count = b.cap
  · refine ⟨_, by simp only [Buf.push, if_pos hc, Buf.set]; rw [if_pos (by omega)]; rfl, ⟨by simp [h1], ?_, ?_⟩, ?_⟩
    · dsimp only; omega
    · intro i hi
      simp only [List.length_append, List.length_singleton] at hi
      dsimp only
      by_cases hi' : i = b.count
      · subst hi'; simp [h1]
      · rw [upd_other _ _ hi', if_pos (by omega), h.data i (by omega), List.getElem_append_left]
    · dsimp only; omega
  · refine ⟨_, by simp only [Buf.push, if_neg hc, Buf.set]; rw [if_pos (by omega)]; rfl, ⟨by simp [h1], ?_, ?_⟩, ?_⟩
    · dsimp only; omega
    · intro i hi
      simp only [List.length_append, List.length_singleton] at hi
      dsimp only
      by_cases hi' : i = b.count
      · subst hi'; simp [h1]
      · rw [upd_other _ _ hi', h.data i (by omega), List.getElem_append_left]
    · exact le_refl _

/-- Looping over the indices of the filled part is looping over its elements. -/
theorem foldlM_range {β : Type} {b : Buf α} {l : List α} (h : b.Is l) (f : β → α → Option β) (s : β) :
    (List.range b.count).foldlM (fun s i => (b.get i).bind fun x => f s x) s = l.foldlM f s := by
  have h1 : ∀ (n : Nat) (hn : n ≤ l.length) (s : β),
      (List.range' (l.length - n) n).foldlM (fun s i => (b.get i).bind fun x => f s x) s = (l.drop (l.length - n)).foldlM f s := by
    intro n
    induction n with
    | zero => intro _ s; simp
    | succ n ih =>
      intro hn s
      rw [List.range'_succ, List.drop_eq_getElem_cons (by omega)]
      rw [List.foldlM_cons, List.foldlM_cons]
      rw [h.get (i := l.length - (n + 1)) (by omega)]
      simp only [Option.bind_some]
      have e : l.length - (n + 1) + 1 = l.length - n := by omega
      rw [e]
      congr 1
      funext s'
      exact ih (by omega) s'
  have := h1 l.length (le_refl _) s
  simp only [Nat.sub_self, List.drop_zero] at this
  rw [h.count, List.range_eq_range']
  exact this

end Buf

variable {F D : Type} [LinearOrder F] [Add F] [Sub F] [Mul F] [Lit F]

/-- `un_buffer_move` replaces every occurrence. -/
theorem unBuffer_loop (l : List Ref) (id : Nat) : ∀ (n : Nat) (b : Buf Ref), n ≤ l.length →
    b.Is ((l.take (l.length - n)).map (fun x => if x = some id then none else x) ++ l.drop (l.length - n)) →
    ∃ b', (List.range' (l.length - n) n).foldlM (fun m i => do
      let x ← Buf.get m i
      if x = some id then m.set i none else some m) b = some b' ∧
      b'.Is (l.map (fun x => if x = some id then none else x)) ∧ b'.cap = b.cap := by
  intro n
  induction n with
  | zero =>
    intro b _ h
    refine ⟨b, rfl, ?_, rfl⟩
    simpa using h
  | succ n ih =>
    intro b hn h
    rw [List.range'_succ, List.foldlM_cons]
    have hlen : ((l.take (l.length - (n + 1))).map (fun x => if x = some id then none else x) ++
        l.drop (l.length - (n + 1))).length = l.length := by simp
    have hidx : l.length - (n + 1) < l.length := by omega
    have hget := h.get (i := l.length - (n + 1)) (by omega)
    have e : l.length - (n + 1) + 1 = l.length - n := by omega
    have hel : ((l.take (l.length - (n + 1))).map (fun x => if x = some id then none else x) ++
        l.drop (l.length - (n + 1)))[l.length - (n + 1)]'(by omega) = l[l.length - (n + 1)] := by
      rw [List.getElem_append_right (by simp)]
      simp
    rw [hel] at hget
    have hle := h.le
    have hcount := h.count
    rw [hlen] at hcount
    have hdrop : l.drop (l.length - (n + 1)) = l[l.length - (n + 1)] :: l.drop (l.length - n) := by
      rw [List.drop_eq_getElem_cons hidx, e]
    have htake : l.take (l.length - n) = l.take (l.length - (n + 1)) ++ [l[l.length - (n + 1)]] := by
      rw [← e, List.take_succ_eq_append_getElem hidx]
    simp only [Option.bind_eq_bind] at ih ⊢
    rw [hget, Option.bind_some]
    by_cases hx : l[l.length - (n + 1)] = some id
    · rw [if_pos hx, Buf.set, if_pos (by omega), Option.bind_some, e]
      have hdata : ∀ i (hi : i < ((l.take (l.length - n)).map (fun x => if x = some id then none else x) ++
          l.drop (l.length - n)).length), upd b.data (l.length - (n + 1)) none i =
          ((l.take (l.length - n)).map (fun x => if x = some id then none else x) ++ l.drop (l.length - n))[i] := by
        intro i hi
        have hi' : i < l.length := by simpa using hi
        by_cases hie : i = l.length - (n + 1)
        · subst hie
          rw [upd_same]
          rw [List.getElem_append_left (by simp; omega)]
          simp [hx]
        · rw [upd_other _ _ hie, h.data i (by omega)]
          rw [List.getElem_append, List.getElem_append]
          simp only [List.length_map, List.length_take]
          by_cases h2 : i < l.length - (n + 1)
          · rw [dif_pos (by omega), dif_pos (by omega)]; simp
          · rw [dif_neg (by omega), dif_neg (by omega)]
            simp only [List.getElem_drop]
            congr 1; omega
      exact ih { b with data := upd b.data (l.length - (n + 1)) none } (by omega) ⟨by simp [hcount], hle, hdata⟩
    · rw [if_neg hx, Option.bind_some, e]
      refine ih b (by omega) ?_
      rw [htake, List.map_append, List.append_assoc]
      rw [hdrop] at h
      simpa only [List.map_cons, List.map_nil, if_neg hx, List.singleton_append] using h

theorem unBufferMove_spec {bp : BroadPhase F D} {l : List Ref} (h : bp.moves.Is l) (id : Nat) :
    ∃ m, bp.unBufferMove id = some { bp with moves := m } ∧
      m.Is (l.map (fun x => if x = some id then none else x)) ∧ m.cap = bp.moves.cap := by
  obtain ⟨m, h1, h2, h3⟩ := unBuffer_loop l id l.length bp.moves (le_refl _) (by simpa using h)
  refine ⟨m, ?_, h2, h3⟩
  simp only [Nat.sub_self] at h1
  rw [BroadPhase.unBufferMove, h.count, List.range_eq_range', h1]
  rfl

/-- The pair `query_callback` pushes. -/
def mkPair (q i : Nat) : Nat × Nat := (min i q, max i q)

/-- Does `query_callback` push a pair? -/
def keeps (g : Nat → Option (Proxy F D)) (q i : Nat) : Bool :=
  !(i == q) && !((g i).any (·.moved) && decide (i > q))

/-- Loop invariant on pair buffers. -/
def PairsOk (b : Buf (Nat × Nat)) (l : List (Nat × Nat)) : Prop := b.Is l ∧ 2 ≤ b.cap

theorem wasMoved_of {t : Tree F D} {g : Nat → Option (Proxy F D)} (h : TInv t g) {i : Nat} {p : Proxy F D}
    (hp : g i = some p) : t.wasMoved i = some p.moved := by
  obtain ⟨o, h⟩ := h
  simp [Tree.wasMoved, Tree.get_of_lt (h.lt (by rw [hp]; simp)), (h.pay i p hp).2.2]

theorem getUserData_of {t : Tree F D} {g : Nat → Option (Proxy F D)} (h : TInv t g) {i : Nat} {p : Proxy F D}
    (hp : g i = some p) : t.getUserData i = some (some p.data) := by
  obtain ⟨o, h⟩ := h
  simp [Tree.getUserData, Tree.get_of_lt (h.lt (by rw [hp]; simp)), (h.pay i p hp).2.1]

theorem callback_spec {t : Tree F D} {g : Nat → Option (Proxy F D)} (h : TInv t g) (q : Nat) : ∀ (ids : List Nat)
    (b : Buf (Nat × Nat)) (l : List (Nat × Nat)), PairsOk b l → (∀ i ∈ ids, g i ≠ none) →
    ∃ b', callUntil (fun (s : Option (Buf (Nat × Nat))) id => (s.bind fun pairs => do
        let moved ← t.wasMoved id
        BroadPhase.queryCallback pairs q id moved, true)) (some b) ids = some b' ∧
      PairsOk b' (l ++ (ids.filter (keeps g q)).map (mkPair q)) := by
  intro ids
  induction ids with
  | nil => intro b l hb _; exact ⟨b, rfl, by simpa using hb⟩
  | cons i ids ih =>
    intro b l hb hg
    obtain ⟨p, hp⟩ := Option.ne_none_iff_exists'.mp (hg i (by simp))
    have hg' : ∀ j ∈ ids, g j ≠ none := fun j hj => hg j (by simp [hj])
    have key : ∃ b1, BroadPhase.queryCallback b q i p.moved = some b1 ∧
        PairsOk b1 (l ++ ([i].filter (keeps g q)).map (mkPair q)) := by
      unfold BroadPhase.queryCallback
      by_cases h1 : i = q
      · refine ⟨b, by rw [if_pos h1], ?_⟩
        have : keeps g q i = false := by simp [keeps, h1]
        simpa [this] using hb
      · rw [if_neg h1]
        by_cases h2 : p.moved = true ∧ i > q
        · refine ⟨b, by rw [if_pos h2], ?_⟩
          have : keeps g q i = false := by simp [keeps, hp, h2.1, h2.2]
          simpa [this] using hb
        · rw [if_neg h2]
          obtain ⟨b1, k1, k2, k3⟩ := hb.1.push (0, 0) (min i q, max i q) (n := b.cap + b.cap / 2)
            (by have := hb.2; omega)
          refine ⟨b1, k1, ?_, by have := hb.2; omega⟩
          have : keeps g q i = true := by
            simp only [keeps, hp, Option.any_some, Bool.and_eq_true, Bool.not_eq_true', beq_eq_false_iff_ne, ne_eq, h1,
              not_false_eq_true, true_and, Bool.and_eq_false_iff, decide_eq_false_iff_not]
            rcases Bool.eq_false_or_eq_true p.moved with hm | hm
            · exact Or.inr (fun hgt => h2 ⟨hm, hgt⟩)
            · exact Or.inl hm
          simpa [this, mkPair] using k2
    obtain ⟨b1, k1, k2⟩ := key
    rw [callUntil]
    simp only [if_true, Option.bind_some, wasMoved_of h hp, Option.bind_eq_bind, k1]
    obtain ⟨b2, m1, m2⟩ := ih b1 _ k2 hg'
    refine ⟨b2, m1, ?_⟩
    have e : (i :: ids).filter (keeps g q) = [i].filter (keeps g q) ++ ids.filter (keeps g q) := by
      rw [← List.filter_append]; rfl
    rw [e, List.map_append, ← List.append_assoc]
    exact m2

theorem meets_symm {a b : AABB F} (h : Meets a b) : Meets b a := ⟨h.2.1, h.1, h.2.2.2, h.2.2.1⟩

/-- The live ids buffered. -/
def live (l : List Ref) : List Nat := l.filterMap fun x => x

theorem gather_spec [RoundLaws F] {t : Tree F D} {g : Nat → Option (Proxy F D)} (h : TInv t g) : ∀ (ml : List Ref)
    (b : Buf (Nat × Nat)) (l : List (Nat × Nat)), PairsOk b l → (∀ i ∈ live ml, g i ≠ none) →
    ∃ (vis : Nat → List Nat) (b' : Buf (Nat × Nat)), (∀ q, (vis q).Nodup) ∧
      (∀ q p i, g q = some p → (i ∈ vis q ↔ ∃ p', g i = some p' ∧ Meets p'.fat p.fat)) ∧
      ml.foldlM (fun pairs x => match x with
        | none => some pairs
        | some q => do
          let fat ← t.getFatAabb q
          let r ← t.query (fun s id => (s.bind fun pairs => do
            let moved ← t.wasMoved id
            BroadPhase.queryCallback pairs q id moved, true)) fat (some pairs)
          r) b = some b' ∧
      PairsOk b' (l ++ (live ml).flatMap fun q => ((vis q).filter (keeps g q)).map (mkPair q)) := by
  have hvis : ∀ q, ∃ ids : List Nat, ids.Nodup ∧ ∀ p, g q = some p → (∀ i, i ∈ ids ↔ ∃ p', g i = some p' ∧ Meets p'.fat p.fat) ∧
      ∀ (S : Type) (cb : S → Nat → S × Bool) (s : S), t.query cb p.fat s = some (callUntil cb s ids) := by
    intro q
    cases hq : g q with
    | none => exact ⟨[], List.nodup_nil, fun p hp => by cases hp⟩
    | some p =>
      obtain ⟨ids, h1, h2, h3⟩ := query_spec h p.fat
      exact ⟨ids, h1, fun p' hp' => by cases hp'; exact ⟨h2, h3⟩⟩
  choose vis hv1 hv2 using hvis
  intro ml b l hb hg
  refine ⟨vis, ?_⟩
  suffices hs : ∃ b', ml.foldlM (fun pairs x => match x with
        | none => some pairs
        | some q => do
          let fat ← t.getFatAabb q
          let r ← t.query (fun s id => (s.bind fun pairs => do
            let moved ← t.wasMoved id
            BroadPhase.queryCallback pairs q id moved, true)) fat (some pairs)
          r) b = some b' ∧
      PairsOk b' (l ++ (live ml).flatMap fun q => ((vis q).filter (keeps g q)).map (mkPair q)) by
    obtain ⟨b', k1, k2⟩ := hs
    exact ⟨b', hv1, fun q p i hq => (hv2 q p hq).1 i, k1, k2⟩
  induction ml generalizing b l with
  | nil => exact ⟨b, rfl, by simpa [live] using hb⟩
  | cons x ml ih =>
    cases x with
    | none =>
      obtain ⟨b', k1, k2⟩ := ih b l hb (by simpa [live] using hg)
      exact ⟨b', by rw [List.foldlM_cons]; exact k1, by simpa [live] using k2⟩
    | some q =>
      have hg' : g q ≠ none ∧ ∀ i ∈ live ml, g i ≠ none := by simpa [live] using hg
      obtain ⟨p, hp⟩ := Option.ne_none_iff_exists'.mp hg'.1
      obtain ⟨w1, w2⟩ := hv2 q p hp
      obtain ⟨b1, k1, k2⟩ := callback_spec h q (vis q) b l hb (fun i hi => by
        obtain ⟨p', hp', -⟩ := (w1 i).mp hi; rw [hp']; simp)
      obtain ⟨b2, m1, m2⟩ := ih b1 _ k2 hg'.2
      refine ⟨b2, ?_, ?_⟩
      · rw [List.foldlM_cons]
        simp only [getFatAabb_of h hp, Option.bind_eq_bind, Option.bind_some, w2]
        simp only [Option.bind_eq_bind] at k1 m1
        rw [k1, Option.bind_some]
        exact m1
      · simpa [live, List.append_assoc] using m2

/-- Clearing the flags of the buffered proxies. -/
theorem clear_spec {t : Tree F D} {g : Nat → Option (Proxy F D)} {peak : Nat} (ml : List Ref) (h : Hist t g peak)
    (hinv : ∀ {t : Tree F D} {g : Nat → Option (Proxy F D)} {peak : Nat}, Hist t g peak → TInv t g)
    (hg : ∀ i ∈ live ml, g i ≠ none) :
    ∃ t', ml.foldlM (fun t x => match x with
        | none => some t
        | some q => Tree.clearMoved t q) t = some t' ∧
      Hist t' (fun i => if i ∈ live ml then (g i).map (fun p => { p with moved := false }) else g i) peak := by
  induction ml generalizing t g with
  | nil => exact ⟨t, rfl, by simpa [live] using h⟩
  | cons x ml ih =>
    cases x with
    | none =>
      obtain ⟨t', k1, k2⟩ := ih h (by simpa [live] using hg)
      exact ⟨t', by rw [List.foldlM_cons]; exact k1, by simpa [live] using k2⟩
    | some q =>
      have hg' : g q ≠ none ∧ ∀ i ∈ live ml, g i ≠ none := by simpa [live] using hg
      obtain ⟨p, hp⟩ := Option.ne_none_iff_exists'.mp hg'.1
      obtain ⟨t1, a1, -, -⟩ := clearMoved_spec (hinv h) hp
      obtain ⟨t', k1, k2⟩ := ih (Hist.clearMoved h hp a1) (fun i hi => by
        by_cases hiq : i = q
        · subst hiq; simp
        · rw [upd_other _ _ hiq]; exact hg'.2 i hi)
      refine ⟨t', ?_, ?_⟩
      · rw [List.foldlM_cons]
        dsimp only
        rw [a1]
        exact k1
      · have e : (fun i => if i ∈ live ml then (upd g q (some { p with moved := false }) i).map
              (fun p : Proxy F D => { p with moved := false }) else upd g q (some { p with moved := false }) i) =
            fun i => if i ∈ live (some q :: ml) then (g i).map (fun p : Proxy F D => { p with moved := false }) else g i := by
          funext i
          have : live (some q :: ml) = q :: live ml := by simp [live]
          rw [this]
          by_cases hiq : i = q
          · subst hiq; simp [hp]
          · rw [upd_other _ _ hiq]; simp [hiq]
        rwa [e] at k2

/-- What holds after every history of the broad-phase. -/
structure BInv (bp : BroadPhase F D) (g : Nat → Option (Proxy F D)) (buf : List Nat) : Prop where
  hist : ∃ peak, Hist bp.tree g peak
  moves : ∃ ml, bp.moves.Is ml ∧ live ml = buf
  movesCap : 1 ≤ bp.moves.cap
  pairsCap : 2 ≤ bp.pairs.cap
  count : bp.proxyCount = nLive g
  alive : ∀ i ∈ buf, g i ≠ none
  flagged : ∀ i p, g i = some p → p.moved = true → i ∈ buf

theorem bufferMove_spec {bp : BroadPhase F D} {buf : List Nat} (h : ∃ ml, bp.moves.Is ml ∧ live ml = buf)
    (hc : 1 ≤ bp.moves.cap) (id : Nat) : ∃ m, bp.bufferMove id = some { bp with moves := m } ∧
      (∃ ml, m.Is ml ∧ live ml = buf ++ [id]) ∧ 1 ≤ m.cap := by
  obtain ⟨ml, h1, h2⟩ := h
  obtain ⟨m, k1, k2, k3⟩ := h1.push (some 0) (some id) (n := bp.moves.cap * 2) (by omega)
  refine ⟨m, by simp [BroadPhase.bufferMove, k1], ⟨_, k2, ?_⟩, by omega⟩
  rw [← h2]
  simp [live]

theorem nLive_create {g : Nat → Option (Proxy F D)} {id : Nat} {p : Proxy F D} (h : g id = none)
    (hf : Set.Finite {i | g i ≠ none}) : nLive (upd g id (some p)) = nLive g + 1 := by
  unfold nLive
  rw [← Set.ncard_insert_of_notMem (a := id) (s := {i | g i ≠ none}) (by simp [h]) hf]
  congr 1
  ext i
  simp only [Set.mem_ofPred_eq, mem_upd_some, Set.mem_insert_iff]

theorem nLive_destroy {g : Nat → Option (Proxy F D)} {id : Nat} (h : g id ≠ none)
    (hf : Set.Finite {i | g i ≠ none}) : nLive (upd g id none) + 1 = nLive g := by
  unfold nLive
  rw [← Set.ncard_insert_of_notMem (a := id) (s := {i | upd g id none i ≠ none}) (by simp)
    (hf.subset (fun i hi => (mem_upd_none.mp hi).2))]
  congr 1
  ext i
  simp only [Set.mem_ofPred_eq, mem_upd_none, Set.mem_insert_iff]
  constructor
  · rintro (rfl | ⟨_, h'⟩)
    · exact h
    · exact h'
  · intro h'
    by_cases hi : i = id
    · exact Or.inl hi
    · exact Or.inr ⟨hi, h'⟩

theorem TInv.finite {t : Tree F D} {g : Nat → Option (Proxy F D)} (h : TInv t g) : Set.Finite {i | g i ≠ none} := by
  obtain ⟨o, hi⟩ := h
  have : {i | g i ≠ none} = {i | i ∈ oleaves o} := by
    ext i; exact (hi.live i).symm
  rw [this]; exact List.finite_toSet _

/-- Everything about `update_pairs`, from the invariant. -/
theorem update_spec [RoundLaws F] {bp : BroadPhase F D} {g : Nat → Option (Proxy F D)} {buf : List Nat} (h : BInv bp g buf) :
    ∃ (vis : Nat → List Nat) (pairs : List (Nat × Nat)) (bp' : BroadPhase F D),
      (∀ q, (vis q).Nodup) ∧
      (∀ q p i, g q = some p → (i ∈ vis q ↔ ∃ p', g i = some p' ∧ Meets p'.fat p.fat)) ∧
      pairs = buf.flatMap (fun q => ((vis q).filter (keeps g q)).map (mkPair q)) ∧
      BInv bp' (fun i => (g i).map fun p => { p with moved := false }) [] ∧
      ∀ (C : Type) (addPair : C → Option D → Option D → C) (c : C),
        bp.updatePairs addPair c = some (bp', pairs.foldl (fun c q =>
          addPair c ((g q.1).map (·.data)) ((g q.2).map (·.data))) c) := by
  obtain ⟨peak, hh⟩ := h.hist
  obtain ⟨ml, hm1, hm2⟩ := h.moves
  have hi := histInv hh
  have halive : ∀ i ∈ live ml, g i ≠ none := by rw [hm2]; exact h.alive
  obtain ⟨vis, b', v1, v2, v3, v4⟩ := gather_spec hi.inv ml { bp.pairs with count := 0 } []
    ⟨⟨rfl, Nat.zero_le _, fun i hi => absurd hi (by simp)⟩, h.pairsCap⟩ halive
  obtain ⟨t', c1, c2⟩ := clear_spec ml hh (fun h => (histInv h).inv) halive
  rw [List.nil_append, hm2] at v4
  have hlive : ∀ q ∈ buf.flatMap (fun q => ((vis q).filter (keeps g q)).map (mkPair q)),
      g q.1 ≠ none ∧ g q.2 ≠ none := by
    intro q hq
    simp only [List.mem_flatMap, List.mem_map, List.mem_filter] at hq
    obtain ⟨a, ha, i, ⟨hi1, -⟩, rfl⟩ := hq
    obtain ⟨p, hp⟩ := Option.ne_none_iff_exists'.mp (h.alive a ha)
    obtain ⟨p', hp', -⟩ := (v2 a p i hp).mp hi1
    have h1 : g i ≠ none := by rw [hp']; simp
    have h2 := h.alive a ha
    simp only [mkPair]
    rcases le_total i a with hle | hle
    · rw [min_eq_left hle, max_eq_right hle]; exact ⟨h1, h2⟩
    · rw [min_eq_right hle, max_eq_left hle]; exact ⟨h2, h1⟩
  have hg : (fun i => if i ∈ live ml then (g i).map (fun p : Proxy F D => { p with moved := false }) else g i) =
      fun i => (g i).map fun p : Proxy F D => { p with moved := false } := by
    funext i
    split
    · rfl
    · rename_i hni
      cases hgi : g i with
      | none => rfl
      | some p =>
        have : p.moved = false := by
          rcases Bool.eq_false_or_eq_true p.moved with hm | hm
          · exact absurd (h.flagged i p hgi hm) (by rw [← hm2]; exact hni)
          · exact hm
        rw [Option.map_some, ← this]
  rw [hg] at c2
  refine ⟨vis, _, { bp with tree := t', pairs := b', moves := { bp.moves with count := 0 } }, v1, v2, rfl, ?_, ?_⟩
  · refine ⟨⟨peak, c2⟩, ⟨[], ⟨rfl, Nat.zero_le _, fun i hi => absurd hi (by simp)⟩, rfl⟩, h.movesCap, v4.2, ?_, by simp, ?_⟩
    · rw [h.count]
      unfold nLive
      congr 2
      ext i
      simp
    · intro i p hp hm
      simp only [Option.map_eq_some_iff] at hp
      obtain ⟨q, -, rfl⟩ := hp
      cases hm
  · intro C addPair c
    have hsend : ∀ (l : List (Nat × Nat)) (c : C), (∀ q ∈ l, g q.1 ≠ none ∧ g q.2 ≠ none) →
        l.foldlM (fun c p => (bp.tree.getUserData p.1).bind fun a => (bp.tree.getUserData p.2).bind fun b =>
          some (addPair c a b)) c = some (l.foldl (fun c q => addPair c ((g q.1).map (·.data)) ((g q.2).map (·.data))) c) := by
      intro l
      induction l with
      | nil => intro c _; rfl
      | cons q l ih =>
        intro c hl
        obtain ⟨h1, h2⟩ := hl q (by simp)
        obtain ⟨p1, e1⟩ := Option.ne_none_iff_exists'.mp h1
        obtain ⟨p2, e2⟩ := Option.ne_none_iff_exists'.mp h2
        rw [List.foldlM_cons, List.foldl_cons, getUserData_of hi.inv e1, getUserData_of hi.inv e2, e1, e2]
        exact ih _ (fun q hq => hl q (by simp [hq]))
    have r1 : BroadPhase.gatherPairs bp.tree bp.moves { bp.pairs with count := 0 } = some b' := by
      unfold BroadPhase.gatherPairs
      rw [← v3]
      exact Buf.foldlM_range hm1 _ _
    have r2 : BroadPhase.sendPairs bp.tree b' addPair c = some ((buf.flatMap (fun q => ((vis q).filter (keeps g q)).map (mkPair q))).foldl
        (fun c q => addPair c ((g q.1).map (·.data)) ((g q.2).map (·.data))) c) := by
      unfold BroadPhase.sendPairs
      exact (Buf.foldlM_range v4.1 _ _).trans (hsend _ c hlive)
    have r3 : BroadPhase.clearFlags bp.tree bp.moves = some t' := by
      unfold BroadPhase.clearFlags
      rw [← c1]
      exact Buf.foldlM_range hm1 _ _
    simp only [BroadPhase.updatePairs, Option.bind_eq_bind, r1, r2, r3, Option.bind_some]
    rfl

theorem bhistInv [RoundLaws F] {bp : BroadPhase F D} {g : Nat → Option (Proxy F D)} {buf : List Nat} {rep : Set (Nat × Nat)}
    (h : BHist bp g buf rep) : BInv bp g buf := by
  induction h with
  | new =>
    refine ⟨⟨0, Hist.new⟩, ⟨[], ⟨rfl, Nat.zero_le _, fun i hi => absurd hi (by simp)⟩, rfl⟩, by simp [BroadPhase.new], by simp [BroadPhase.new], ?_, by simp,
      fun i p hp => by cases hp⟩
    unfold nLive; simp [BroadPhase.new]
  | @create bp bp' g buf rep box d id fat _ e1 e2 ih =>
    obtain ⟨peak, hh⟩ := ih.hist
    have hi := histInv hh
    obtain ⟨t1, id1, a1, a2, a3, -⟩ := createProxy_spec hi.inv box d
    obtain ⟨m, m1, m2, m3⟩ := bufferMove_spec (bp := { bp with tree := t1, proxyCount := bp.proxyCount + 1 }) ih.moves ih.movesCap id1
    have e : bp.createProxy box d = some ({ bp with tree := t1, proxyCount := bp.proxyCount + 1, moves := m }, id1) := by
      simp only [BroadPhase.createProxy, a1, Option.bind_eq_bind, Option.bind_some, m1]; rfl
    rw [e1] at e
    obtain ⟨rfl, rfl⟩ := Prod.mk.inj (Option.some.inj e)
    refine ⟨⟨_, Hist.create hh a1 e2⟩, m2, m3, ih.pairsCap, ?_, ?_, ?_⟩
    · rw [nLive_create a2 hi.inv.finite]
      show bp.proxyCount + 1 = _
      rw [ih.count]; push_cast; ring
    · intro i hib
      simp only [List.mem_append, List.mem_singleton] at hib
      rw [mem_upd_some]
      rcases hib with hib | hib
      · exact Or.inr (ih.alive i hib)
      · exact Or.inl hib
    · intro i p hp hmv
      by_cases hii : i = id
      · simp [hii]
      · rw [upd_other _ _ hii] at hp
        simp [ih.flagged i p hp hmv]
  | @destroy bp bp' g buf rep id _ hid e1 ih =>
    obtain ⟨peak, hh⟩ := ih.hist
    have hi := histInv hh
    obtain ⟨t1, a1, -, -⟩ := destroyProxy_spec hi.inv hid
    obtain ⟨ml, hm1, hm2⟩ := ih.moves
    obtain ⟨m, m1, m2, m3⟩ := unBufferMove_spec hm1 id
    have e : bp.destroyProxy id = some { bp with tree := t1, proxyCount := bp.proxyCount - 1, moves := m } := by
      simp only [BroadPhase.destroyProxy, m1, Option.bind_eq_bind, Option.bind_some, a1]; rfl
    rw [e1] at e
    obtain rfl := Option.some.inj e
    refine ⟨⟨_, Hist.destroy hh hid a1⟩, ⟨_, m2, ?_⟩, by rw [m3]; exact ih.movesCap, ih.pairsCap, ?_, ?_, ?_⟩
    · rw [← hm2]
      clear hm1 hm2 m2
      induction ml with
      | nil => rfl
      | cons x ml ihm =>
        cases x with
        | none => simpa [live] using ihm
        | some q =>
          by_cases hq : q = id
          · simp only [live, hq, List.map_cons, if_true] at ihm ⊢
            simpa using ihm
          · have : (some q : Option Nat) ≠ some id := by simpa using hq
            simp only [live, List.map_cons, if_neg this] at ihm ⊢
            simpa [hq] using ihm
    · have := nLive_destroy hid hi.inv.finite
      show bp.proxyCount - 1 = _
      rw [ih.count, ← this]; push_cast; ring
    · intro i hib
      simp only [List.mem_filter, decide_eq_true_iff] at hib
      exact mem_upd_none.mpr ⟨hib.2, ih.alive i hib.1⟩
    · intro i p hp hmv
      have hii : i ≠ id := by rintro rfl; simp at hp
      rw [upd_other _ _ hii] at hp
      simp [ih.flagged i p hp hmv, hii]
  | @move bp bp' g buf rep id p box disp b t fat _ hid e1 e2 e3 ih =>
    obtain ⟨peak, hh⟩ := ih.hist
    cases b with
    | false =>
      have e : bp.moveProxy id box disp = some { bp with tree := t } := by
        simp only [BroadPhase.moveProxy, e2, Option.bind_eq_bind, Option.bind_some]; rfl
      rw [e1] at e
      obtain rfl := Option.some.inj e
      refine ⟨⟨_, Hist.move hh hid e2 e3⟩, ih.moves, ih.movesCap, ih.pairsCap, by rw [nLive_upd hid]; exact ih.count, ?_, ?_⟩
      · intro i hib
        rw [mem_upd_some]
        exact Or.inr (ih.alive i hib)
      · intro i q hq hmv
        by_cases hii : i = id
        · subst hii
          simp only [upd_same, Option.some.injEq] at hq
          subst hq
          exact ih.flagged i p hid (by simpa using hmv)
        · rw [upd_other _ _ hii] at hq
          exact ih.flagged i q hq hmv
    | true =>
      obtain ⟨m, m1, m2, m3⟩ := bufferMove_spec (bp := { bp with tree := t }) ih.moves ih.movesCap id
      have e : bp.moveProxy id box disp = some { bp with tree := t, moves := m } := by
        simp only [BroadPhase.moveProxy, e2, Option.bind_eq_bind, Option.bind_some, if_true, m1]
      rw [e1] at e
      obtain rfl := Option.some.inj e
      refine ⟨⟨_, Hist.move hh hid e2 e3⟩, m2, m3, ih.pairsCap, by rw [nLive_upd hid]; exact ih.count, ?_, ?_⟩
      · intro i hib
        simp only [if_true, List.mem_append, List.mem_singleton] at hib
        rw [mem_upd_some]
        rcases hib with hib | hib
        · exact Or.inr (ih.alive i hib)
        · exact Or.inl hib
      · intro i q hq hmv
        by_cases hii : i = id
        · simp [hii]
        · rw [upd_other _ _ hii] at hq
          simp [ih.flagged i q hq hmv]
  | @touch bp bp' g buf rep id _ hid e1 ih =>
    obtain ⟨m, m1, m2, m3⟩ := bufferMove_spec ih.moves ih.movesCap id
    rw [BroadPhase.touchProxy, m1] at e1
    obtain rfl := Option.some.inj e1
    refine ⟨ih.hist, m2, m3, ih.pairsCap, ih.count, ?_, ?_⟩
    · intro i hib
      simp only [List.mem_append, List.mem_singleton] at hib
      rcases hib with hib | rfl
      · exact ih.alive i hib
      · exact hid
    · intro i p hp hmv
      simp [ih.flagged i p hp hmv]
  | @update bp bp' g buf rep calls _ e1 ih =>
    obtain ⟨vis, pairs, bp1, -, -, -, h1, h2⟩ := update_spec ih
    rw [h2] at e1
    obtain ⟨rfl, -⟩ := Prod.mk.inj (Option.some.inj e1)
    exact h1
  | @rebuild bp bp' g buf rep _ e1 ih =>
    obtain ⟨peak, hh⟩ := ih.hist
    cases ht : bp.tree.rebuildBottomUp with
    | none => simp [BroadPhase.rebuild, ht] at e1
    | some t =>
      simp only [BroadPhase.rebuild, ht, Option.bind_eq_bind, Option.bind_some] at e1
      obtain rfl := Option.some.inj e1
      exact ⟨⟨peak, Hist.rebuild hh ht⟩, ih.moves, ih.movesCap, ih.pairsCap, ih.count, ih.alive, ih.flagged⟩
  | @shift bp g buf rep o _ ih =>
    obtain ⟨peak, hh⟩ := ih.hist
    refine ⟨⟨peak, Hist.shift o hh⟩, ih.moves, ih.movesCap, ih.pairsCap, ?_, ?_, ?_⟩
    · show bp.proxyCount = _
      rw [ih.count]
      unfold nLive
      congr 2
      ext i
      simp
    · intro i hib
      have := ih.alive i hib
      simpa using this
    · intro i p hp hmv
      simp only [Option.map_eq_some_iff] at hp
      obtain ⟨q, hq, rfl⟩ := hp
      exact ih.flagged i q hq hmv

end B2
