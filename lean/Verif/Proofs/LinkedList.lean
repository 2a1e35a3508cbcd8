import Verif.Model.LinkedList
import Mathlib.Data.List.Nodup
import Mathlib.Data.Finset.Card

/-! Helper lemmas for the linked list model. -/
namespace B2

/-- Following `next` from `h` yields exactly `l` and then ends. -/
def Seg (next : Nat → Option Nat) : Option Nat → List Nat → Prop
  | h, [] => h = none
  | h, a :: l => h = some a ∧ Seg next (next a) l

theorem Seg.congr {next next' : Nat → Option Nat} :
    ∀ {l : List Nat} {h : Option Nat}, (∀ a ∈ l, next' a = next a) → Seg next h l → Seg next' h l
  | [], _, _, hs => hs
  | a :: l, h, hc, hs => by
    refine ⟨hs.1, ?_⟩
    rw [hc a (by simp)]
    exact Seg.congr (fun b hb => hc b (by simp [hb])) hs.2

theorem Seg.upd_notMem {next : Nat → Option Nat} {l : List Nat} {h : Option Nat} {n : Nat} {v : Option Nat}
    (hn : n ∉ l) (hs : Seg next h l) : Seg (upd next n v) h l :=
  hs.congr fun a ha => upd_other _ _ (by rintro rfl; exact hn ha)

theorem Seg.length_le {next : Nat → Option Nat} {l : List Nat} {h : Option Nat} {size : Nat}
    (_ : Seg next h l) (hnd : l.Nodup) (hb : ∀ a ∈ l, a < size) : l.length ≤ size := by
  have h1 : l.toFinset ⊆ Finset.range size := by
    intro a ha; simp at ha ⊢; exact hb a ha
  have h2 := Finset.card_le_card h1
  rwa [List.toFinset_card_of_nodup hnd, Finset.card_range] at h2

theorem iterFrom_eq {next : Nat → Option Nat} :
    ∀ {l : List Nat} {h : Option Nat} {fuel : Nat}, Seg next h l → l.length ≤ fuel →
      SList.iterFrom next fuel h = some l
  | [], _, fuel, hs, _ => by
    simp only [Seg] at hs; subst hs
    cases fuel <;> rfl
  | a :: l, _, 0, _, hf => by simp at hf
  | a :: l, _, fuel + 1, hs, hf => by
    obtain ⟨rfl, hs⟩ := hs
    simp only [SList.iterFrom, iterFrom_eq hs (by simpa using hf), Option.map_some]

namespace SList

/-- `s` represents the sequence `l`. -/
def Rep (s : State) (l : List Nat) : Prop := Seg s.next s.head l ∧ l.Nodup ∧ ∀ a ∈ l, a < s.size

theorem Rep.toList {s : State} {l : List Nat} (h : Rep s l) : toList s = some l :=
  iterFrom_eq h.1 (h.1.length_le h.2.1 h.2.2)

theorem Rep.pushFront {s : State} {l : List Nat} {n : Nat} (h : Rep s l) (hn : n ∉ l) :
    Rep (pushFront s n) (n :: l) := by
  refine ⟨⟨rfl, ?_⟩, ?_, ?_⟩
  · simp only [SList.pushFront, upd_same]; exact h.1.upd_notMem hn
  · exact List.nodup_cons.mpr ⟨hn, h.2.1⟩
  · intro a ha
    simp only [SList.pushFront]
    rcases List.mem_cons.mp ha with rfl | ha
    · omega
    · have := h.2.2 a ha; omega

theorem removeLoop_mem {next : Nat → Option Nat} {t : Nat} :
    ∀ {l : List Nat} {a fuel : Nat}, Seg next (next a) l → (a :: l).Nodup → t ∈ l → l.length < fuel →
      ∃ next', removeLoop next t fuel a = some next' ∧ Seg next' (next' a) (l.erase t) ∧
        ∀ x, x ∉ a :: l → next' x = next x
  | [], _, _, _, _, ht, _ => by simp at ht
  | b :: l, a, 0, _, _, _, hf => by simp at hf
  | b :: l, a, fuel + 1, hs, hnd, ht, hf => by
    obtain ⟨hab, hs⟩ := hs
    have hnd' := (List.nodup_cons.mp hnd)
    have hnd'' := (List.nodup_cons.mp hnd'.2)
    simp only [removeLoop, hab]
    by_cases hbt : b = t
    · subst hbt
      refine ⟨_, by rw [if_pos rfl], ?_, ?_⟩
      · simp only [upd_same, List.erase_cons_head]
        exact hs.upd_notMem (fun h => hnd'.1 (List.mem_cons_of_mem _ h))
      · intro x hx; exact upd_other _ _ (by rintro rfl; simp at hx)
    · have ht' : t ∈ l := by
        rcases List.mem_cons.mp ht with rfl | h
        · exact absurd rfl hbt
        · exact h
      obtain ⟨next', h1, h2, h3⟩ := removeLoop_mem hs hnd'.2 ht' (by simpa using hf)
      refine ⟨next', by rw [if_neg hbt, h1], ?_, ?_⟩
      · have hane : next' a = some b := by rw [h3 a hnd'.1, hab]
        rw [List.erase_cons_tail (by simpa using hbt)]
        exact ⟨hane, h2⟩
      · intro x hx
        exact h3 x (fun h => hx (List.mem_cons_of_mem _ h))

theorem removeLoop_notMem {next : Nat → Option Nat} {t : Nat} :
    ∀ {l : List Nat} {a fuel : Nat}, Seg next (next a) l → t ∉ l → removeLoop next t fuel a = none
  | _, _, 0, _, _ => rfl
  | [], a, fuel + 1, hs, _ => by
    simp only [Seg] at hs; simp [removeLoop, hs]
  | b :: l, a, fuel + 1, hs, ht => by
    obtain ⟨hab, hs⟩ := hs
    have hbt : b ≠ t := by rintro rfl; simp at ht
    simp only [removeLoop, hab, if_neg hbt]
    exact removeLoop_notMem hs (fun h => ht (List.mem_cons_of_mem _ h))

theorem Rep.remove_mem {s : State} {l : List Nat} {n : Nat} (h : Rep s l) (hn : n ∈ l) :
    ∃ s', remove s n = some s' ∧ Rep s' (l.erase n) := by
  obtain ⟨hs, hnd, hb⟩ := h
  cases l with
  | nil => simp at hn
  | cons a l =>
    obtain ⟨hh, hs⟩ := hs
    unfold SList.remove
    rw [hh]
    by_cases han : a = n
    · subst han
      refine ⟨{ s with head := s.next a }, by simp only [if_true], ?_, ?_, ?_⟩
      · simp only [List.erase_cons_head]; exact hs
      · simpa using (List.nodup_cons.mp hnd).2
      · intro x hx; rw [List.erase_cons_head] at hx; exact hb x (List.mem_cons_of_mem _ hx)
    · have hn' : n ∈ l := by
        rcases List.mem_cons.mp hn with rfl | h
        · exact absurd rfl han
        · exact h
      have hlen : (a :: l).length ≤ s.size := by
        have : Seg s.next s.head (a :: l) := ⟨hh, hs⟩
        exact this.length_le hnd hb
      obtain ⟨next', h1, h2, _⟩ := removeLoop_mem hs hnd hn' (Nat.lt_of_lt_of_le (by simp) hlen)
      refine ⟨{ s with next := next' }, by simp only [if_neg han, h1, Option.map_some, hh], ?_, ?_, ?_⟩
      · rw [List.erase_cons_tail (by simpa using han)]
        exact ⟨hh, h2⟩
      · exact hnd.erase _
      · intro x hx; exact hb x (List.mem_of_mem_erase hx)

theorem Rep.remove_notMem {s : State} {l : List Nat} {n : Nat} (h : Rep s l) (hn : n ∉ l) :
    remove s n = none := by
  obtain ⟨hs, -, -⟩ := h
  unfold SList.remove
  cases l with
  | nil => simp only [Seg] at hs; simp [hs]
  | cons a l =>
    obtain ⟨hh, hs⟩ := hs
    have han : a ≠ n := by rintro rfl; simp at hn
    rw [hh]
    simp only [if_neg han, removeLoop_notMem hs (fun h => hn (List.mem_cons_of_mem _ h)), Option.map_none]

theorem removeAllLoop_some : ∀ {l : List Nat} {next : Nat → Option Nat} {h : Option Nat} {fuel : Nat},
    Seg next h l → l.Nodup → l.length ≤ fuel → ∃ next', removeAllLoop fuel next h = some next' ∧
      (∀ a ∈ l, next' a = none) ∧ ∀ x, x ∉ l → next' x = next x
  | [], next, h, fuel, hs, _, _ => by
    simp only [Seg] at hs; subst hs
    refine ⟨next, by cases fuel <;> rfl, by simp, by simp⟩
  | a :: l, _, _, 0, _, _, hf => by simp at hf
  | a :: l, next, _, fuel + 1, hs, hnd, hf => by
    obtain ⟨rfl, hs⟩ := hs
    have hnd' := List.nodup_cons.mp hnd
    obtain ⟨next', h1, h2, h3⟩ :=
      removeAllLoop_some (hs.upd_notMem (v := none) hnd'.1) hnd'.2 (by simpa using hf)
    refine ⟨next', by simpa only [removeAllLoop] using h1, ?_, ?_⟩
    · intro x hx
      rcases List.mem_cons.mp hx with rfl | hx
      · rw [h3 _ hnd'.1, upd_same]
      · exact h2 x hx
    · intro x hx
      rw [h3 x (fun h => hx (List.mem_cons_of_mem _ h)), upd_other _ _ (by rintro rfl; simp at hx)]

theorem Rep.removeAll {s : State} {l : List Nat} (h : Rep s l) :
    ∃ s', removeAll s = some s' ∧ Rep s' [] ∧ ∀ a ∈ l, s'.next a = none := by
  obtain ⟨next', h1, h2, _⟩ := removeAllLoop_some h.1 h.2.1 (h.1.length_le h.2.1 h.2.2)
  exact ⟨{ s with head := none, next := next' }, by simp only [SList.removeAll, h1, Option.map_some], ⟨rfl, by simp, by simp⟩, h2⟩

end SList

namespace DList

/-- Following `next` from `h` yields `l`, and the `prev` links run backwards, the first one being `p`. -/
def DSeg (next prev : Nat → Option Nat) : Option Nat → Option Nat → List Nat → Prop
  | _, h, [] => h = none
  | p, h, a :: l => h = some a ∧ prev a = p ∧ DSeg next prev (some a) (next a) l

theorem DSeg.seg {next prev : Nat → Option Nat} :
    ∀ {l : List Nat} {p h : Option Nat}, DSeg next prev p h l → Seg next h l
  | [], _, _, hs => hs
  | _ :: _, _, _, hs => ⟨hs.1, hs.2.2.seg⟩

theorem DSeg.congr {next next' prev prev' : Nat → Option Nat} :
    ∀ {l : List Nat} {p h : Option Nat}, (∀ a ∈ l, next' a = next a) → (∀ a ∈ l, prev' a = prev a) →
      DSeg next prev p h l → DSeg next' prev' p h l
  | [], _, _, _, _, hs => hs
  | a :: l, _, _, hc, hp, hs => by
    refine ⟨hs.1, ?_, ?_⟩
    · rw [hp a (by simp)]; exact hs.2.1
    · rw [hc a (by simp)]
      exact DSeg.congr (fun b hb => hc b (by simp [hb])) (fun b hb => hp b (by simp [hb])) hs.2.2

/-- `s` represents the sequence `l`. -/
def Rep (s : State) (l : List Nat) : Prop :=
  DSeg s.next s.prev none s.head l ∧ l.Nodup ∧ ∀ a ∈ l, a < s.size

theorem Rep.toList {s : State} {l : List Nat} (h : Rep s l) : toList s = some l :=
  iterFrom_eq h.1.seg (h.1.seg.length_le h.2.1 h.2.2)

theorem Rep.pushFront {s : State} {l : List Nat} {n : Nat} (h : Rep s l) (hn : n ∉ l) :
    Rep (pushFront s n) (n :: l) := by
  obtain ⟨hs, hnd, hb⟩ := h
  refine ⟨⟨rfl, ?_, ?_⟩, ?_, ?_⟩
  · simp [DList.pushFront]
  · simp only [DList.pushFront, upd_same]
    cases l with
    | nil => exact hs
    | cons a l =>
      obtain ⟨h1, h2, h3⟩ := hs
      have hna : a ≠ n := by rintro rfl; simp at hn
      have hnl : n ∉ l := fun h => hn (List.mem_cons_of_mem _ h)
      have hal := (List.nodup_cons.mp hnd).1
      refine ⟨h1, ?_, ?_⟩
      · simp only [h1]; rw [upd_other _ _ hna, upd_same]
      · rw [upd_other _ _ hna]
        refine h3.congr ?_ ?_
        · intro b hb'; exact upd_other _ _ (by rintro rfl; exact hnl hb')
        · intro b hb'
          simp only [h1]
          rw [upd_other _ _ (by rintro rfl; exact hnl hb'), upd_other _ _ (by rintro rfl; exact hal hb')]
  · exact List.nodup_cons.mpr ⟨hn, hnd⟩
  · intro a ha
    simp only [DList.pushFront]
    rcases List.mem_cons.mp ha with rfl | ha
    · omega
    · have := hb a ha; omega

theorem DSeg.prev_mem {next prev : Nat → Option Nat} {n : Nat} :
    ∀ {l : List Nat} {p h : Option Nat}, DSeg next prev p h l → n ∈ l → h ≠ some n →
      ∃ q ∈ l, prev n = some q
  | [], _, _, _, hn, _ => by simp at hn
  | a :: l, p, h, hs, hn, hh => by
    obtain ⟨h1, h2, h3⟩ := hs
    rcases List.mem_cons.mp hn with rfl | hn'
    · exact absurd h1 hh
    · by_cases hna : next a = some n
      · cases l with
        | nil => simp at hn'
        | cons b l =>
          obtain ⟨k1, k2, -⟩ := h3
          have : b = n := by rw [hna] at k1; exact (Option.some.inj k1).symm
          subst this
          exact ⟨a, by simp, k2⟩
      · obtain ⟨q, hq, e⟩ := h3.prev_mem hn' hna
        exact ⟨q, List.mem_cons_of_mem _ hq, e⟩

theorem DSeg.next_mem {next prev : Nat → Option Nat} {n x : Nat} :
    ∀ {l : List Nat} {p h : Option Nat}, DSeg next prev p h l → n ∈ l → next n = some x → x ∈ l
  | [], _, _, _, hn, _ => by simp at hn
  | a :: l, p, h, hs, hn, hx => by
    obtain ⟨h1, h2, h3⟩ := hs
    rcases List.mem_cons.mp hn with rfl | hn'
    · cases l with
      | nil => simp only [DSeg] at h3; rw [h3] at hx; simp at hx
      | cons b l =>
        have := h3.1; rw [hx] at this; cases this; simp
    · exact List.mem_cons_of_mem _ (h3.next_mem hn' hx)

/-- Unlinking an element. -/
theorem DSeg.unlink {next prev next' prev' : Nat → Option Nat} {n : Nat}
    (hnx : next' = match prev n with | some q => upd next q (next n) | none => next)
    (hpx : prev' = match next n with | some x => upd prev x (prev n) | none => prev) :
    ∀ {l : List Nat} {p h : Option Nat}, DSeg next prev p h l → l.Nodup → n ∈ l → (∀ q, p = some q → q ∉ l) →
      DSeg next' prev' p (if h = some n then next n else h) (l.erase n)
  | [], _, _, _, _, hn, _ => by simp at hn
  | a :: l, p, h, hs, hnd, hn, hp => by
    obtain ⟨h1, h2, h3⟩ := hs
    obtain ⟨hal, hndl⟩ := List.nodup_cons.mp hnd
    by_cases han : a = n
    · subst han
      rw [if_pos h1, List.erase_cons_head]
      cases l with
      | nil => exact h3
      | cons b l =>
        obtain ⟨k1, k2, k3⟩ := h3
        have hbl := (List.nodup_cons.mp hndl).1
        have hnb : ∀ c ∈ b :: l, next' c = next c := by
          intro c hc
          rw [hnx, h2]
          cases hpe : p with
          | none => rfl
          | some q => exact upd_other _ _ (by rintro rfl; exact hp c hpe (List.mem_cons_of_mem _ hc))
        have hpb : ∀ c ∈ l, prev' c = prev c := by
          intro c hc
          rw [hpx, k1]
          exact upd_other _ _ (by rintro rfl; exact hbl hc)
        refine ⟨k1, ?_, ?_⟩
        · rw [hpx, k1, h2]; simp
        · rw [hnb b (by simp)]
          exact k3.congr (fun c hc => hnb c (List.mem_cons_of_mem _ hc)) hpb
    · have hn' : n ∈ l := by
        rcases List.mem_cons.mp hn with rfl | h
        · exact absurd rfl han
        · exact h
      have hne : h ≠ some n := by rw [h1]; simpa using han
      rw [if_neg hne, List.erase_cons_tail (by simpa using han)]
      have ih := DSeg.unlink hnx hpx h3 hndl hn' (by rintro q hq; cases hq; exact hal)
      have hpa : prev' a = p := by
        rw [hpx]
        cases hx : next n with
        | none => exact h2
        | some x =>
          have := h3.next_mem hn' hx
          simp only
          rw [upd_other _ _ (by rintro rfl; exact hal this)]; exact h2
      refine ⟨h1, hpa, ?_⟩
      have hna : next' a = if next a = some n then next n else next a := by
        by_cases hh : next a = some n
        · rw [if_pos hh]
          cases l with
          | nil => simp at hn'
          | cons b l =>
            obtain ⟨k1, k2, -⟩ := h3
            have : b = n := by rw [hh] at k1; exact (Option.some.inj k1).symm
            subst this
            rw [hnx, k2]; simp
        · rw [if_neg hh]
          obtain ⟨q, hq, e⟩ := h3.prev_mem hn' hh
          rw [hnx, e]
          exact upd_other _ _ (by rintro rfl; exact hal hq)
      rw [hna]; exact ih

theorem Rep.remove_mem {s : State} {l : List Nat} {n : Nat} (h : Rep s l) (hn : n ∈ l) :
    ∃ s', remove s n = some s' ∧ Rep s' (l.erase n) ∧ s'.size = s.size := by
  obtain ⟨hs, hnd, hb⟩ := h
  have key := DSeg.unlink rfl rfl hs hnd hn (by simp)
  have hnd' := hnd.erase n
  have hb' : ∀ a ∈ l.erase n, a < s.size := fun a ha => hb a (List.mem_of_mem_erase ha)
  cases hh : s.head with
  | none =>
    cases l with
    | nil => simp at hn
    | cons a l => rw [hs.1] at hh; simp at hh
  | some h0 =>
    by_cases hhn : h0 = n
    · subst hhn
      rw [hh, if_pos rfl] at key
      have hp : s.prev h0 = none := by
        cases l with
        | nil => simp at hn
        | cons a l =>
          have e := hs.1; rw [hh] at e; cases e
          exact hs.2.1
      unfold DList.remove
      simp only [hh, if_true, hp]
      refine ⟨_, rfl, ⟨?_, hnd', hb'⟩, rfl⟩
      simp only [hp] at key
      exact key
    · rw [hh, if_neg (by simpa using hhn)] at key
      unfold DList.remove
      simp only [hh, if_neg hhn]
      refine ⟨_, rfl, ⟨?_, hnd', hb'⟩, rfl⟩
      exact key

theorem Rep.removeAll {s : State} {l : List Nat} (h : Rep s l) :
    ∃ s', removeAll s = some s' ∧ Rep s' [] := by
  obtain ⟨next', h1, -, -⟩ :=
    SList.removeAllLoop_some h.1.seg h.2.1 (h.1.seg.length_le h.2.1 h.2.2)
  exact ⟨{ s with head := none, next := next' }, by simp only [DList.removeAll, h1, Option.map_some],
    rfl, by simp, by simp⟩

theorem Rep.next_eq {s : State} {l1 l2 : List Nat} {n : Nat} (h : Rep s (l1 ++ n :: l2)) :
    s.next n = l2.head? := by
  have key : ∀ {l1 : List Nat} {p h : Option Nat}, DSeg s.next s.prev p h (l1 ++ n :: l2) →
      s.next n = l2.head? := by
    intro l1
    induction l1 with
    | nil =>
      intro p h hs
      obtain ⟨-, -, hs⟩ := hs
      cases l2 with
      | nil => simpa [DSeg] using hs
      | cons b l2 => simpa using hs.1
    | cons a l1 ih => intro p h hs; exact ih hs.2.2
  exact key h.1

theorem iterRemove_eq (rem : Nat → Bool) : ∀ (rest keep : List Nat) (s : State) (fuel : Nat),
    Rep s (keep ++ rest) → rest.length ≤ fuel →
      ∃ s', iterRemove rem fuel s rest.head? = some (rest, s') ∧ Rep s' (keep ++ rest.filter (fun n => !rem n))
  | [], keep, s, fuel, h, _ => ⟨s, by cases fuel <;> rfl, by simpa using h⟩
  | n :: rest, _, _, 0, _, hf => by simp at hf
  | n :: rest, keep, s, fuel + 1, h, hf => by
    have hnx := h.next_eq
    have hf' : rest.length ≤ fuel := by simpa using hf
    by_cases hr : rem n = true
    · obtain ⟨s1, h1, h2, -⟩ := h.remove_mem (n := n) (by simp)
      have hk : n ∉ keep := by
        intro hmem
        have := h.2.1
        rw [List.nodup_append] at this
        exact this.2.2 n hmem n (by simp) rfl
      rw [List.erase_append_right _ hk, List.erase_cons_head] at h2
      obtain ⟨s', k1, k2⟩ := iterRemove_eq rem rest keep s1 fuel h2 hf'
      refine ⟨s', ?_, by simpa [hr] using k2⟩
      simp only [iterRemove, List.head?_cons, hr, if_true, h1, hnx, k1, Option.map_some]
    · have hr' : rem n = false := by simpa using hr
      have h2 : Rep s ((keep ++ [n]) ++ rest) := by simpa using h
      obtain ⟨s', k1, k2⟩ := iterRemove_eq rem rest (keep ++ [n]) s fuel h2 hf'
      refine ⟨s', ?_, by simpa [hr'] using k2⟩
      simp only [iterRemove, List.head?_cons, hr', hnx, k1, Option.map_some, Bool.false_eq_true, if_false]

theorem Rep.head_eq {s : State} {l : List Nat} (h : Rep s l) : s.head = l.head? := by
  cases l with
  | nil => exact h.1
  | cons a l => exact h.1.1

end DList
end B2
