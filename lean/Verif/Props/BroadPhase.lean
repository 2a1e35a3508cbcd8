import Verif.Proofs.BroadPhase
import Verif.Props.DynamicTree
set_option linter.unusedSectionVars false

/-!
# Properties C15-C18: the broad-phase

`BHist bp g buf rep` (Verif/Spec/BroadPhase.lean): some history of public calls with live ids led to `bp`; `g`, `buf`
and `rep` are the user's record of live proxies, of proxies created/re-inserted/touched since the last update, and of
the pairs reported so far.
-/
namespace B2.Props
open Spec

theorem foldl_record {D : Type} (f : Nat × Nat → Option D × Option D) (l : List (Nat × Nat)) (acc : List (Option D × Option D)) :
    l.foldl (fun c q => record c (f q).1 (f q).2) acc = acc ++ l.map f := by
  induction l generalizing acc with
  | nil => simp
  | cons q l ih => rw [List.foldl_cons, ih]; simp [record]

section
variable {F D : Type} [LinearOrder F] [Add F] [Sub F] [Mul F] [Lit F] [RoundLaws F]

/-- **C15, C16, C17**: after any history `update_pairs` succeeds, and what it passes to `add_pair` is the user data of
a list of pairs of proxies which does not depend on the callback, such that
* (C15) every pair of different live proxies with overlapping fat boxes, one of which was created, re-inserted or
  touched since the last update, is in the list;
* (C16) every pair in the list consists of two different live proxies whose fat boxes overlap (one of them buffered);
* (C17) no pair is listed twice, provided no proxy was buffered twice and each buffered one has its moved flag. -/
theorem c15_c16_c17_update_pairs {bp : BroadPhase F D} {g : Nat → Option (Proxy F D)} {buf : List Nat} {rep : Set (Nat × Nat)}
    (h : BHist bp g buf rep) :
    ∃ (pairs : List (Nat × Nat)) (bp' : BroadPhase F D),
      (∀ (C : Type) (addPair : C → Option D → Option D → C) (c : C), bp.updatePairs addPair c =
        some (bp', pairs.foldl (fun c q => addPair c ((g q.1).map (·.data)) ((g q.2).map (·.data))) c)) ∧
      (∀ i j p q, i < j → g i = some p → g j = some q → Meets p.fat q.fat → i ∈ buf ∨ j ∈ buf → (i, j) ∈ pairs) ∧
      (∀ i j, (i, j) ∈ pairs → i < j ∧ (i ∈ buf ∨ j ∈ buf) ∧
        ∃ p q, g i = some p ∧ g j = some q ∧ Meets p.fat q.fat ∧ bp.testOverlap i j = some true) ∧
      (buf.Nodup → (∀ i ∈ buf, ∃ p, g i = some p ∧ p.moved = true) → pairs.Nodup) := by
  have hb := bhistInv h
  obtain ⟨vis, pairs, bp', v1, v2, rfl, -, v4⟩ := update_spec hb
  obtain ⟨peak, hh⟩ := hb.hist
  have hi := histInv hh
  have hmem : ∀ x, x ∈ buf.flatMap (fun q => ((vis q).filter (keeps g q)).map (mkPair q)) ↔
      ∃ q ∈ buf, ∃ i ∈ vis q, keeps g q i = true ∧ mkPair q i = x := by
    intro x
    simp only [List.mem_flatMap, List.mem_map, List.mem_filter, and_assoc]
  have hkeep : ∀ q i p, g i = some p → (keeps g q i = true ↔ i ≠ q ∧ (p.moved = true → i < q)) := by
    intro q i p hp
    simp only [keeps, hp, Option.any_some, Bool.and_eq_true, Bool.not_eq_true', beq_eq_false_iff_ne, ne_eq,
      Bool.and_eq_false_iff, decide_eq_false_iff_not, gt_iff_lt, not_lt]
    constructor
    · rintro ⟨h1, h2⟩
      refine ⟨h1, fun hm => ?_⟩
      rcases h2 with h2 | h2
      · rw [hm] at h2; cases h2
      · omega
    · rintro ⟨h1, h2⟩
      refine ⟨h1, ?_⟩
      rcases Bool.eq_false_or_eq_true p.moved with hm | hm
      · exact Or.inr (h2 hm).le
      · exact Or.inl hm
  refine ⟨_, bp', v4, ?_, ?_, ?_⟩
  · intro i j p q hij hp hq hm hbuf
    rw [hmem]
    have hj : j ∈ buf → ∃ q ∈ buf, ∃ a ∈ vis q, keeps g q a = true ∧ mkPair q a = (i, j) := by
      intro hj
      refine ⟨j, hj, i, (v2 j q i hq).mpr ⟨p, hp, hm⟩, (hkeep j i p hp).mpr ⟨hij.ne, fun _ => hij⟩, ?_⟩
      simp [mkPair, min_eq_left hij.le, max_eq_right hij.le]
    rcases hbuf with hb1 | hb1
    · by_cases hmq : q.moved = true
      · exact hj (hb.flagged j q hq hmq)
      · refine ⟨i, hb1, j, (v2 i p j hp).mpr ⟨q, hq, (meets_symm hm)⟩, (hkeep i j q hq).mpr ⟨hij.ne', fun hc => absurd hc hmq⟩, ?_⟩
        simp [mkPair, min_eq_right hij.le, max_eq_left hij.le]
    · exact hj hb1
  · intro i j hij
    rw [hmem] at hij
    obtain ⟨a, ha, b, hb1, hb2, hb3⟩ := hij
    obtain ⟨pa, hpa⟩ := Option.ne_none_iff_exists'.mp (hb.alive a ha)
    obtain ⟨pb, hpb, hm⟩ := (v2 a pa b hpa).mp hb1
    obtain ⟨k1, k2⟩ := (hkeep a b pb hpb).mp hb2
    have hov : ∀ {i j : Nat} {p q : Proxy F D}, g i = some p → g j = some q → Meets p.fat q.fat → bp.testOverlap i j = some true := by
      intro i j p q h1 h2 h3
      simp [BroadPhase.testOverlap, getFatAabb_of hi.inv h1, getFatAabb_of hi.inv h2, (overlap_iff _ _).mpr h3]
    simp only [mkPair, Prod.mk.injEq] at hb3
    rcases lt_or_gt_of_ne k1 with hlt | hlt
    · rw [min_eq_left hlt.le, max_eq_right hlt.le] at hb3
      obtain ⟨rfl, rfl⟩ := hb3
      exact ⟨hlt, Or.inr ha, pb, pa, hpb, hpa, hm, hov hpb hpa hm⟩
    · rw [min_eq_right hlt.le, max_eq_left hlt.le] at hb3
      obtain ⟨rfl, rfl⟩ := hb3
      exact ⟨hlt, Or.inl ha, pa, pb, hpa, hpb, (meets_symm hm), hov hpa hpb (meets_symm hm)⟩
  · intro hnd hmv
    rw [List.nodup_flatMap]
    have hinj : ∀ q a b, mkPair q a = mkPair q b → a = b := by
      intro q a b hab
      simp only [mkPair, Prod.mk.injEq] at hab
      omega
    refine ⟨fun q _ => ((v1 q).filter _).map (fun a b => hinj q a b), ?_⟩
    refine hnd.imp_of_mem ?_
    intro a b ha hb' hne
    rw [Function.onFun, List.disjoint_left]
    rintro x hx1 hx2
    simp only [List.mem_map, List.mem_filter] at hx1 hx2
    obtain ⟨c, ⟨hc1, hc2⟩, rfl⟩ := hx1
    obtain ⟨d, ⟨hd1, hd2⟩, hd3⟩ := hx2
    obtain ⟨pa, hpa, hma⟩ := hmv a ha
    obtain ⟨pb, hpb, hmb⟩ := hmv b hb'
    obtain ⟨pc, hpc, -⟩ := (v2 a pa c hpa).mp hc1
    obtain ⟨pd, hpd, -⟩ := (v2 b pb d hpb).mp hd1
    obtain ⟨c1, c2⟩ := (hkeep a c pc hpc).mp hc2
    obtain ⟨d1, d2⟩ := (hkeep b d pd hpd).mp hd2
    simp only [mkPair, Prod.mk.injEq] at hd3
    have hcb : c = b := by omega
    have hda : d = a := by omega
    subst hcb hda
    rw [hpb] at hpc; cases hpc
    rw [hpa] at hpd; cases hpd
    have := c2 hmb
    have := d2 hma
    omega

/-- **C18**: after `update_pairs` nothing is buffered and no moved flag is set, so that an immediately following
`update_pairs` calls back for nothing; and at all times the proxy count is the number of live proxies. -/
theorem c18_update_is_idempotent {bp : BroadPhase F D} {g : Nat → Option (Proxy F D)} {buf : List Nat} {rep : Set (Nat × Nat)}
    (h : BHist bp g buf rep) :
    bp.getProxyCount = nLive g ∧
    ∀ (C : Type) (addPair : C → Option D → Option D → C) (c c' : C) bp', bp.updatePairs addPair c = some (bp', c') →
      bp'.getProxyCount = nLive g ∧ bp'.moves.count = 0 ∧ (∀ i, g i ≠ none → bp'.tree.wasMoved i = some false) ∧
      ∀ (C : Type) (addPair : C → Option D → Option D → C) (c : C), ∃ bp'', bp'.updatePairs addPair c = some (bp'', c) := by
  refine ⟨(bhistInv h).count, ?_⟩
  intro C addPair c c' bp' e
  obtain ⟨vis, pairs, bp1, -, -, -, h1, h2⟩ := update_spec (bhistInv h)
  rw [h2] at e
  obtain ⟨rfl, -⟩ := Prod.mk.inj (Option.some.inj e)
  have hn : nLive (fun i => (g i).map fun p : Proxy F D => { p with moved := false }) = nLive g := by
    unfold nLive; congr 1; ext i; simp
  refine ⟨by rw [← hn]; exact h1.count, ?_, ?_, ?_⟩
  · obtain ⟨ml, k1, k2⟩ := h1.moves
    have e := h2 Unit (fun _ _ _ => ()) ()
    simp only [BroadPhase.updatePairs, Option.bind_eq_bind, Option.bind_eq_some_iff] at e
    obtain ⟨_, -, _, -, _, -, e⟩ := e
    simp only [Option.pure_def, Option.some.injEq, Prod.mk.injEq] at e
    rw [← e.1]
  · intro i hi
    obtain ⟨p, hp⟩ := Option.ne_none_iff_exists'.mp hi
    obtain ⟨peak, hh⟩ := h1.hist
    exact wasMoved_of (histInv hh).inv (p := { p with moved := false }) (by rw [hp]; rfl)
  · intro C addPair c
    obtain ⟨vis', pairs', bp2, -, -, k1, -, k2⟩ := update_spec h1
    simp only [List.flatMap_nil] at k1
    subst k1
    exact ⟨bp2, k2 C addPair c⟩

/-- No call with live ids panics. -/
theorem c15_broad_phase_never_panics {bp : BroadPhase F D} {g : Nat → Option (Proxy F D)} {buf : List Nat}
    {rep : Set (Nat × Nat)} (h : BHist bp g buf rep) :
    (∀ box d, ∃ r, bp.createProxy box d = some r) ∧
    (∀ id, g id ≠ none → (∃ r, bp.destroyProxy id = some r) ∧ (∃ r, bp.touchProxy id = some r) ∧
      ∀ box disp, ∃ r, bp.moveProxy id box disp = some r) ∧
    (∀ (C : Type) (addPair : C → Option D → Option D → C) (c : C), ∃ r, bp.updatePairs addPair c = some r) := by
  have hb := bhistInv h
  obtain ⟨peak, hh⟩ := hb.hist
  have hi := histInv hh
  refine ⟨fun box d => ?_, fun id hid => ⟨?_, ?_, fun box disp => ?_⟩, fun C addPair c => ?_⟩
  · obtain ⟨t1, id1, a1, -⟩ := createProxy_spec hi.inv box d
    obtain ⟨m, m1, -⟩ := bufferMove_spec (bp := { bp with tree := t1, proxyCount := bp.proxyCount + 1 }) hb.moves hb.movesCap id1
    exact ⟨_, by simp only [BroadPhase.createProxy, a1, Option.bind_eq_bind, Option.bind_some, m1]; rfl⟩
  · obtain ⟨t1, a1, -, -⟩ := destroyProxy_spec hi.inv hid
    obtain ⟨ml, hm1, hm2⟩ := hb.moves
    obtain ⟨m, m1, -⟩ := unBufferMove_spec hm1 id
    exact ⟨_, by simp only [BroadPhase.destroyProxy, m1, Option.bind_eq_bind, Option.bind_some, a1]; rfl⟩
  · obtain ⟨m, m1, -⟩ := bufferMove_spec hb.moves hb.movesCap id
    exact ⟨_, m1⟩
  · obtain ⟨p, hp⟩ := Option.ne_none_iff_exists'.mp hid
    obtain ⟨t', b, a1, -⟩ := moveProxy_spec hi.inv hp box disp (by have := hi.cap_lo; omega)
    obtain ⟨m, m1, -⟩ := bufferMove_spec (bp := { bp with tree := t' }) hb.moves hb.movesCap id
    cases b
    · exact ⟨_, by simp only [BroadPhase.moveProxy, a1, Option.bind_eq_bind, Option.bind_some]; rfl⟩
    · exact ⟨_, by simp only [BroadPhase.moveProxy, a1, Option.bind_eq_bind, Option.bind_some, if_true]; exact m1⟩
  · obtain ⟨_, _, bp', -, -, -, -, k⟩ := update_spec hb
    exact ⟨_, k C addPair c⟩

end

section
variable {F D : Type} [Field F] [LinearOrder F] [IsStrictOrderedRing F]

/-- C15 along histories, in exact arithmetic (so that shifting the origin keeps overlaps): two live proxies whose
fat boxes overlap have been reported since both were created, unless one of them is still waiting for the next
`update_pairs`. In particular right after an update no overlapping pair has been missed. -/
theorem c15_no_pair_missed {bp : BroadPhase F D} {g : Nat → Option (Proxy F D)} {buf : List Nat} {rep : Set (Nat × Nat)}
    (h : BHist bp g buf rep) :
    ∀ i j p q, i < j → g i = some p → g j = some q → Meets p.fat q.fat → (i, j) ∈ rep ∨ i ∈ buf ∨ j ∈ buf := by
  induction h with
  | new => intro i j p q _ hp; cases hp
  | @create bp bp' g buf rep box d id fat _ e1 e2 ih =>
    intro i j p q hij hp hq hm
    by_cases hi : i = id
    · simp [hi]
    by_cases hj : j = id
    · simp [hj]
    rw [upd_other _ _ hi] at hp
    rw [upd_other _ _ hj] at hq
    rcases ih i j p q hij hp hq hm with h | h | h
    · exact Or.inl h
    · simp [h]
    · simp [h]
  | @destroy bp bp' g buf rep id _ hid e1 ih =>
    intro i j p q hij hp hq hm
    have hi : i ≠ id := by rintro rfl; simp at hp
    have hj : j ≠ id := by rintro rfl; simp at hq
    rw [upd_other _ _ hi] at hp
    rw [upd_other _ _ hj] at hq
    rcases ih i j p q hij hp hq hm with h | h | h
    · exact Or.inl ⟨h, hi, hj⟩
    · simp [h, hi]
    · simp [h, hj]
  | @move bp bp' g buf rep id p0 box disp b t fat hprev hid e1 e2 e3 ih =>
    intro i j p q hij hp hq hm
    cases b with
    | true =>
      by_cases hi : i = id
      · simp [hi]
      by_cases hj : j = id
      · simp [hj]
      rw [upd_other _ _ hi] at hp
      rw [upd_other _ _ hj] at hq
      rcases ih i j p q hij hp hq hm with h | h | h
      · exact Or.inl h
      · simp [h]
      · simp [h]
    | false =>
      obtain ⟨peak, hh⟩ := (bhistInv hprev).hist
      have hi := histInv hh
      obtain ⟨t1, b1, a1, a2, a3, a4⟩ := moveProxy_spec hi.inv hid box disp (by have := hi.cap_lo; omega)
      have hfat : fat = p0.fat := by
        rw [e2] at a1
        obtain ⟨rfl, rfl⟩ := Prod.mk.inj (Option.some.inj a1)
        obtain ⟨rfl, -⟩ := a3 rfl
        have e : bp.moveProxy id box disp = some { bp with tree := bp.tree } := by
          simp only [BroadPhase.moveProxy, e2, Option.bind_eq_bind, Option.bind_some]; rfl
        rw [e1] at e
        obtain rfl := Option.some.inj e
        rw [getFatAabb_of hi.inv hid] at e3
        exact (Option.some.inj e3).symm
      have hback : ∀ i p, upd g id (some { p0 with box := box, fat := fat, moved := p0.moved || false }) i = some p →
          ∃ p', g i = some p' ∧ p'.fat = p.fat := by
        intro i p hp
        by_cases hi : i = id
        · subst hi
          simp only [upd_same, Option.some.injEq] at hp
          subst hp
          exact ⟨p0, hid, hfat.symm⟩
        · rw [upd_other _ _ hi] at hp; exact ⟨p, hp, rfl⟩
      obtain ⟨p', hp', ep⟩ := hback i p hp
      obtain ⟨q', hq', eq⟩ := hback j q hq
      simpa using ih i j p' q' hij hp' hq' (by rw [ep, eq]; exact hm)
  | @touch bp bp' g buf rep id _ hid e1 ih =>
    intro i j p q hij hp hq hm
    rcases ih i j p q hij hp hq hm with h | h | h
    · exact Or.inl h
    · simp [h]
    · simp [h]
  | @update bp bp' g buf rep calls hprev e1 ih =>
    intro i j p q hij hp hq hm
    left
    simp only [Option.map_eq_some_iff] at hp hq
    obtain ⟨p, hp, rfl⟩ := hp
    obtain ⟨q, hq, rfl⟩ := hq
    rcases ih i j p q hij hp hq hm with h | h
    · exact Or.inl h
    · right
      obtain ⟨pairs, bp1, k1, k2, -⟩ := c15_c16_c17_update_pairs hprev
      rw [k1, foldl_record (fun q => ((g q.1).map (·.data), (g q.2).map (·.data)))] at e1
      obtain ⟨-, rfl⟩ := Prod.mk.inj (Option.some.inj e1)
      refine ⟨hij, p, q, hp, hq, ?_⟩
      simp only [List.nil_append, List.mem_map]
      exact ⟨(i, j), k2 i j p q hij hp hq hm h, by simp [hp, hq]⟩
  | rebuild _ _ ih => exact ih
  | @shift bp g buf rep o _ ih =>
    intro i j p q hij hp hq hm
    simp only [Option.map_eq_some_iff] at hp hq
    obtain ⟨p, hp, rfl⟩ := hp
    obtain ⟨q, hq, rfl⟩ := hq
    refine ih i j p q hij hp hq ?_
    obtain ⟨h1, h2, h3, h4⟩ := hm
    simp only [shift] at h1 h2 h3 h4
    exact ⟨by linarith, by linarith, by linarith, by linarith⟩

end

/-! ### A concrete history

Proxies 7 at [0,1]x[0,1], 8 at [1/2,3/2]x[0,1], 9 at [9,10]x[0,1]; then an update, then proxy 9 moves onto 7,
and 7 and 8 are touched. -/
def bx1 : BroadPhase ℚ Nat × Nat := ((BroadPhase.new : BroadPhase ℚ Nat).createProxy (exBox 0) 7).get (by decide +kernel)
def bx2 : BroadPhase ℚ Nat × Nat := (bx1.1.createProxy exHalf 8).get (by decide +kernel)
def bx3 : BroadPhase ℚ Nat × Nat := (bx2.1.createProxy (exBox 9) 9).get (by decide +kernel)
def bx4 : BroadPhase ℚ Nat × List (Option Nat × Option Nat) := (bx3.1.updatePairs record []).get (by decide +kernel)
def bx5 : BroadPhase ℚ Nat := (bx4.1.moveProxy bx3.2 (exBox 0) ⟨1, 0⟩).get (by decide +kernel)
def bx6 : BroadPhase ℚ Nat := (bx5.touchProxy bx1.2).get (by decide +kernel)
def bx7 : BroadPhase ℚ Nat := (bx6.touchProxy bx2.2).get (by decide +kernel)

theorem bx7_hist : ∃ g rep p7 p8 p9, BHist bx7 g [3, 0, 1] rep ∧ g 0 = some p7 ∧ p7.data = 7 ∧ g 1 = some p8 ∧ p8.data = 8 ∧
    g 3 = some p9 ∧ p9.data = 9 ∧ p9.moved = true := by
  have e1 : bx1.2 = 0 := by decide +kernel
  have e2 : bx2.2 = 1 := by decide +kernel
  have e3 : bx3.2 = 3 := by decide +kernel
  have h1 := BHist.create (F := ℚ) (bp' := bx1.1) (id := 0) (d := 7) (box := exBox 0)
    (fat := (bx1.1.tree.getFatAabb 0).get (by decide +kernel)) .new (by rw [← e1]; simp [bx1]) (by simp)
  have h2 := BHist.create (bp' := bx2.1) (id := 1) (d := 8) (box := exHalf)
    (fat := (bx2.1.tree.getFatAabb 1).get (by decide +kernel)) h1 (by rw [← e2]; simp [bx2]) (by simp)
  have h3 := BHist.create (bp' := bx3.1) (id := 3) (d := 9) (box := exBox 9)
    (fat := (bx3.1.tree.getFatAabb 3).get (by decide +kernel)) h2 (by rw [← e3]; simp [bx3]) (by simp)
  have h4 := BHist.update (bp' := bx4.1) (calls := bx4.2) h3 (by simp [bx4])
  have eb : ((bx4.1.tree.moveProxy 3 (exBox 0) ⟨1, 0⟩).get (by decide +kernel)).2 = true := by decide +kernel
  have h5 := BHist.move (bp' := bx5) (id := 3) (p := ⟨9, exBox 9, (bx3.1.tree.getFatAabb 3).get (by decide +kernel), false⟩)
    (box := exBox 0) (disp := ⟨1, 0⟩) (b := true)
    (t := ((bx4.1.tree.moveProxy 3 (exBox 0) ⟨1, 0⟩).get (by decide +kernel)).1)
    (fat := (bx5.tree.getFatAabb 3).get (by decide +kernel)) h4 (by simp [upd]) (by simp [bx5, e3])
    (by rw [← eb]; simp) (by simp)
  have h6 := BHist.touch (bp' := bx6) (id := 0) h5 (by simp [upd]) (by simp [bx6, e1])
  have h7 := BHist.touch (bp' := bx7) (id := 1) h6 (by simp [upd]) (by simp [bx7, e2])
  exact ⟨_, _, _, _, _, h7, by simp [upd]; rfl, rfl, by simp [upd]; rfl, rfl, by simp [upd]; rfl, rfl, rfl⟩

/-- C17, the last clause: without the proviso duplicates do occur. In this history 7 and 8 are touched, which does not
set the moved flag, and the pair (7, 8) is reported twice. The first update reports the one overlapping pair. -/
theorem c17_duplicates_are_possible : (∃ g buf rep, BHist bx7 g buf rep) ∧ bx4.2 = [(some 7, some 8)] ∧
    (bx7.updatePairs record []).map (·.2) =
      some [(some 8, some 9), (some 7, some 9), (some 7, some 8), (some 7, some 8)] := by
  refine ⟨?_, ?_⟩
  · obtain ⟨g, rep, -, -, -, h, -⟩ := bx7_hist
    exact ⟨g, _, rep, h⟩
  · decide +kernel

/-- The proviso of C17 holds for `bx3`: three new proxies, all flagged, each buffered once. -/
example : ∃ g rep, BHist bx3.1 g [0, 1, 3] rep ∧ ∀ i ∈ [0, 1, 3], ∃ p, g i = some p ∧ p.moved = true := by
  have e1 : bx1.2 = 0 := by decide +kernel
  have e2 : bx2.2 = 1 := by decide +kernel
  have e3 : bx3.2 = 3 := by decide +kernel
  have h1 := BHist.create (F := ℚ) (bp' := bx1.1) (id := 0) (d := 7) (box := exBox 0)
    (fat := (bx1.1.tree.getFatAabb 0).get (by decide +kernel)) .new (by rw [← e1]; simp [bx1]) (by simp)
  have h2 := BHist.create (bp' := bx2.1) (id := 1) (d := 8) (box := exHalf)
    (fat := (bx2.1.tree.getFatAabb 1).get (by decide +kernel)) h1 (by rw [← e2]; simp [bx2]) (by simp)
  have h3 := BHist.create (bp' := bx3.1) (id := 3) (d := 9) (box := exBox 9)
    (fat := (bx3.1.tree.getFatAabb 3).get (by decide +kernel)) h2 (by rw [← e3]; simp [bx3]) (by simp)
  refine ⟨_, _, h3, ?_⟩
  simp [upd]

end B2.Props
