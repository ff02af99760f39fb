import Verif.Linked.Model
import Verif.SuperScene.Lemmas
import Mathlib.Logic.Relation

/-! Lemmas about friends-of-friends growth. -/

set_option autoImplicit false

namespace Forcepho.Linked

open Forcepho.SuperScene

/-- `b` is a listed neighbour of `a`. -/
def Link (adj : Nat → List Nat) (a b : Nat) : Prop := b ∈ adj a

/-- Connected by a chain of overlaps. -/
def Conn (adj : Nat → List Nat) : Nat → Nat → Prop := Relation.ReflTransGen (Link adj)

theorem mem_collectLeaves (adj : Nat → List Nat) (seeds leaves : List Nat) (x : Nat) :
    x ∈ collectLeaves adj seeds leaves ↔ x ∈ leaves ∨ ∃ s ∈ seeds, x ∈ adj s := by
  induction seeds generalizing leaves with
  | nil => simp [collectLeaves]
  | cons a t ih =>
    rw [collectLeaves, ih]
    simp only [List.mem_append, List.mem_filter, decide_eq_true_eq, List.mem_cons]
    constructor
    · rintro ((h | h) | ⟨s, hs, hx⟩)
      · exact Or.inl h
      · exact Or.inr ⟨a, Or.inl rfl, h.1⟩
      · exact Or.inr ⟨s, Or.inr hs, hx⟩
    · rintro (h | ⟨s, rfl | hs, hx⟩)
      · exact Or.inl (Or.inl h)
      · by_cases hl : x ∈ leaves
        · exact Or.inl (Or.inl hl)
        · exact Or.inl (Or.inr ⟨hx, hl⟩)
      · exact Or.inr ⟨s, hs, hx⟩

theorem nodup_collectLeaves (adj : Nat → List Nat) (hadj : ∀ i, (adj i).Nodup)
    (seeds leaves : List Nat) (h : leaves.Nodup) : (collectLeaves adj seeds leaves).Nodup := by
  induction seeds generalizing leaves with
  | nil => simpa [collectLeaves] using h
  | cons a t ih =>
    rw [collectLeaves]
    apply ih
    rw [List.nodup_append]
    refine ⟨h, (hadj a).filter _, ?_⟩
    intro x hx y hy he
    subst he
    simp only [List.mem_filter, decide_eq_true_eq] at hy
    exact hy.2 hx

/-- Loop invariant of `grow_source`. -/
structure GInv (adj : Nat → List Nat) (n : Nat) (index : Nat) (members seeds : List Nat) : Prop where
  nodup : (members ++ seeds).Nodup
  lt : ∀ x ∈ members ++ seeds, x < n
  reach : ∀ x ∈ members ++ seeds, Conn adj index x
  closed : ∀ x ∈ members, ∀ y ∈ adj x, y ∈ members ++ seeds
  start : index ∈ members ++ seeds

theorem GInv.next {adj : Nat → List Nat} {n index : Nat} {members seeds : List Nat}
    (hadj : ∀ i, (adj i).Nodup) (hlt : ∀ i, ∀ j ∈ adj i, j < n)
    (H : GInv adj n index members seeds) :
    GInv adj n index (members ++ seeds)
      ((collectLeaves adj seeds []).filter fun l => decide (l ∉ members ++ seeds)) := by
  have hmem : ∀ x, x ∈ (collectLeaves adj seeds []).filter
      (fun l => decide (l ∉ members ++ seeds)) ↔ (∃ s ∈ seeds, x ∈ adj s) ∧ x ∉ members ++ seeds := by
    intro x
    simp [mem_collectLeaves]
  refine ⟨?_, ?_, ?_, ?_, ?_⟩
  · rw [List.nodup_append]
    refine ⟨H.nodup, (nodup_collectLeaves adj hadj seeds [] List.nodup_nil).filter _, ?_⟩
    intro x hx y hy he
    subst he
    exact ((hmem x).1 hy).2 hx
  · intro x hx
    rcases List.mem_append.1 hx with h | h
    · exact H.lt x h
    · obtain ⟨⟨s, _, hs⟩, _⟩ := (hmem x).1 h
      exact hlt s x hs
  · intro x hx
    rcases List.mem_append.1 hx with h | h
    · exact H.reach x h
    · obtain ⟨⟨s, hs, hx'⟩, _⟩ := (hmem x).1 h
      exact Relation.ReflTransGen.tail (H.reach s (List.mem_append_right _ hs)) hx'
  · intro x hx y hy
    by_cases hin : y ∈ members ++ seeds
    · exact List.mem_append_left _ hin
    · rcases List.mem_append.1 hx with h | h
      · exact absurd (H.closed x h y hy) hin
      · exact List.mem_append_right _ ((hmem y).2 ⟨⟨x, h, hy⟩, hin⟩)
  · exact List.mem_append_left _ H.start

theorem nodup_length_le {l : List Nat} {n : Nat} (hn : l.Nodup) (hlt : ∀ x ∈ l, x < n) :
    l.length ≤ n := by
  have : l.Subperm (List.range n) := List.subperm_of_subset hn (by
    intro x hx; simpa using hlt x hx)
  simpa using this.length_le

/-- The loop terminates within `n - |members| + 1` passes and returns the closure. -/
theorem growLoop_spec {adj : Nat → List Nat} {n index : Nat}
    (hadj : ∀ i, (adj i).Nodup) (hlt : ∀ i, ∀ j ∈ adj i, j < n) (fuel : Nat) :
    ∀ (members seeds : List Nat), GInv adj n index members seeds → seeds ≠ [] →
      n < fuel + members.length →
      ∃ res, growLoop adj fuel members seeds = some res ∧ res.Nodup ∧
        (∀ x ∈ res, x < n) ∧ ∀ x, x ∈ res ↔ Conn adj index x := by
  induction fuel with
  | zero =>
    intro members seeds H hs hf
    have := nodup_length_le H.nodup H.lt
    rw [List.length_append] at this
    omega
  | succ fuel ih =>
    intro members seeds H hs hf
    have H' := H.next hadj hlt
    simp only [growLoop]
    split
    · rename_i h0
      have h0' := List.eq_nil_of_length_eq_zero h0
      rw [h0'] at H'
      refine ⟨_, rfl, H.nodup, H.lt, ?_⟩
      intro x
      refine ⟨H.reach x, ?_⟩
      intro hc
      induction hc with
      | refl => exact H.start
      | tail _ hl ihx => simpa using H'.closed _ ihx _ hl
    · rename_i h0
      refine ih _ _ H' ?_ ?_
      · intro h; exact h0 (by rw [h]; rfl)
      · have : 0 < seeds.length := List.length_pos_iff.2 hs
        rw [List.length_append]; omega

theorem growSource_spec {adj : Nat → List Nat} {n index fuel : Nat}
    (hadj : ∀ i, (adj i).Nodup) (hlt : ∀ i, ∀ j ∈ adj i, j < n) (hi : index < n)
    (hf : n < fuel) :
    ∃ res, growSource adj fuel index = some res ∧ res.Nodup ∧ (∀ x ∈ res, x < n) ∧
      ∀ x, x ∈ res ↔ Conn adj index x := by
  refine growLoop_spec hadj hlt fuel [] [index] ?_ (by simp) (by simpa using hf)
  refine ⟨by simp, by simpa using hi, ?_, by simp, by simp⟩
  intro x hx
  simp at hx
  subst hx
  exact Relation.ReflTransGen.refl

theorem growLoop_head {adj : Nat → List Nat} (fuel : Nat) :
    ∀ (members seeds res : List Nat), growLoop adj fuel members seeds = some res →
      ∃ t, res = members ++ seeds ++ t := by
  induction fuel with
  | zero => intro m s r h; simp [growLoop] at h
  | succ f ih =>
    intro m s r h
    simp only [growLoop] at h
    split at h
    · exact ⟨[], by simpa using (Option.some.inj h).symm⟩
    · obtain ⟨t, ht⟩ := ih _ _ _ h
      exact ⟨_, by rw [ht, List.append_assoc]⟩

/-- More fuel does not change the answer. -/
theorem growLoop_fuel {adj : Nat → List Nat} (f g : Nat) (hfg : f ≤ g) :
    ∀ (members seeds res : List Nat), growLoop adj f members seeds = some res →
      growLoop adj g members seeds = some res := by
  induction f generalizing g with
  | zero => intro m s r h; simp [growLoop] at h
  | succ f ih =>
    intro m s r h
    obtain ⟨g, rfl⟩ : ∃ g', g = g' + 1 := ⟨g - 1, by omega⟩
    simp only [growLoop] at h ⊢
    split at h
    · rename_i h0; rw [if_pos h0]; exact h
    · rename_i h0; rw [if_neg h0]; exact ih g (by omega) _ _ _ h

theorem Conn.symm {adj : Nat → List Nat} (hs : ∀ i j, j ∈ adj i → i ∈ adj j) {a b : Nat}
    (h : Conn adj a b) : Conn adj b a := by
  induction h with
  | refl => exact Relation.ReflTransGen.refl
  | tail _ hl ih => exact Relation.ReflTransGen.head (hs _ _ hl) ih

theorem Conn.trans {adj : Nat → List Nat} {a b c : Nat} (h : Conn adj a b) (h' : Conn adj b c) :
    Conn adj a c := Relation.ReflTransGen.trans h h'

theorem Conn.lt {adj : Nat → List Nat} {n : Nat} (hlt : ∀ i, ∀ j ∈ adj i, j < n) {a b : Nat}
    (ha : a < n) (h : Conn adj a b) : b < n := by
  cases h with
  | refl => exact ha
  | tail _ hl => exact hlt _ _ hl

/-! ### the group catalog -/

/-- Invariant of `make_group_catalog`. -/
structure GrpInv (adj : Nat → List Nat) (n : Nat) (todo : List Nat) (gid : List Int) (gind : Nat) :
    Prop where
  len : gid.length = n
  range : ∀ (i : Nat) (g : Int), gid[i]? = some g → -1 ≤ g ∧ g < gind
  same : ∀ (i j : Nat) (g h : Int), gid[i]? = some g → gid[j]? = some h → 0 ≤ g → 0 ≤ h →
    (g = h ↔ Conn adj i j)
  closed : ∀ (i j : Nat) (g h : Int), gid[i]? = some g → gid[j]? = some h → 0 ≤ g →
    Conn adj i j → 0 ≤ h
  done : ∀ (i : Nat) (g : Int), gid[i]? = some g → i ∉ todo → 0 ≤ g
  used : ∀ k : Nat, k < gind → ∃ i : Nat, gid[i]? = some (k : Int)

theorem groupLoop_spec {adj : Nat → List Nat} {n : Nat}
    (hadj : ∀ i, (adj i).Nodup) (hlt : ∀ i, ∀ j ∈ adj i, j < n)
    (hs : ∀ i j, j ∈ adj i → i ∈ adj j) (fuel : Nat) (hf : n < fuel) :
    ∀ (todo : List Nat) (gid : List Int) (gind : Nat), (∀ i ∈ todo, i < n) →
      GrpInv adj n todo gid gind →
      ∃ gid' gind', groupLoop adj fuel todo gid gind = some (gid', gind') ∧
        GrpInv adj n [] gid' gind' := by
  classical
  intro todo
  induction todo with
  | nil => intro gid gind _ H; exact ⟨gid, gind, rfl, H⟩
  | cons i t ih =>
    intro gid gind htodo H
    have hi : i < n := htodo i (by simp)
    have hg : gid[i]? = some (gid[i]'(by rw [H.len]; exact hi)) := List.getElem?_eq_getElem _
    rw [groupLoop, hg]
    generalize (gid[i]'(by rw [H.len]; exact hi)) = g at hg
    simp only
    split
    · rename_i h0
      refine ih gid gind (fun j hj => htodo j (by simp [hj]))
        ⟨H.len, H.range, H.same, H.closed, ?_, H.used⟩
      intro j h hj hnt
      by_cases he : j = i
      · subst he; rw [hg] at hj; obtain rfl := Option.some.inj hj; exact h0
      · exact H.done j h hj (by simp [he, hnt])
    · rename_i h0
      obtain ⟨res, hres, hnd, hrlt, hmem⟩ := growSource_spec (index := i) hadj hlt hi hf
      rw [hres]
      simp only
      have hget : ∀ j : Nat, (updAt gid res fun _ => (gind : Int))[j]? =
          (gid[j]?).map fun h => if Conn adj i j then (gind : Int) else h := by
        intro j
        rw [getElem?_updAt]
        congr 1
        funext h
        by_cases hc : Conn adj i j
        · simp [hc, (hmem j).2 hc]
        · have : j ∉ res := fun h => hc ((hmem j).1 h)
          simp [hc, this]
      -- no member of the new group has a group yet
      have hfresh : ∀ (j : Nat) (h : Int), gid[j]? = some h → Conn adj i j → ¬ 0 ≤ h := by
        intro j h hj hc hh
        exact h0 (H.closed j i h g hj hg hh (hc.symm hs))
      refine ih _ _ (fun j hj => htodo j (by simp [hj])) ⟨by simp [H.len], ?_, ?_, ?_, ?_, ?_⟩
      · intro j h hj
        rw [hget] at hj
        obtain ⟨h', hh', rfl⟩ := Option.map_eq_some_iff.1 hj
        have := H.range j h' hh'
        split <;> omega
      · intro j k a b hj hk ha hb
        rw [hget] at hj hk
        obtain ⟨a', ha', rfl⟩ := Option.map_eq_some_iff.1 hj
        obtain ⟨b', hb', rfl⟩ := Option.map_eq_some_iff.1 hk
        have ra := H.range j a' ha'
        have rb := H.range k b' hb'
        by_cases cj : Conn adj i j
        · by_cases ck : Conn adj i k
          · simp only [cj, ck, if_true, true_iff]
            exact (cj.symm hs).trans ck
          · simp only [cj, ck, if_true, if_false] at hb ⊢
            constructor
            · intro h; omega
            · intro h; exact absurd (cj.trans h) ck
        · by_cases ck : Conn adj i k
          · simp only [cj, ck, if_true, if_false] at ha ⊢
            constructor
            · intro h; omega
            · intro h; exact absurd (ck.trans (h.symm hs)) cj
          · simp only [cj, ck, if_false] at ha hb ⊢
            exact H.same j k a' b' ha' hb' ha hb
      · intro j k a b hj hk ha hc
        rw [hget] at hj hk
        obtain ⟨a', ha', rfl⟩ := Option.map_eq_some_iff.1 hj
        obtain ⟨b', hb', rfl⟩ := Option.map_eq_some_iff.1 hk
        by_cases ck : Conn adj i k
        · simp [ck]
        · have cj : ¬ Conn adj i j := fun h => ck (h.trans hc)
          simp only [cj, ck, if_false] at ha ⊢
          exact H.closed j k a' b' ha' hb' ha hc
      · intro j h hj hnt
        rw [hget] at hj
        obtain ⟨h', hh', rfl⟩ := Option.map_eq_some_iff.1 hj
        split
        · omega
        · rename_i hc
          have : j ≠ i := by rintro rfl; exact hc Relation.ReflTransGen.refl
          exact H.done j h' hh' (by simp [this, hnt])
      · intro k hk
        by_cases hk' : k = gind
        · subst hk'
          exact ⟨i, by rw [hget, hg]; simp [show Conn adj i i from Relation.ReflTransGen.refl]⟩
        · obtain ⟨j, hj⟩ := H.used k (by omega)
          refine ⟨j, ?_⟩
          rw [hget, hj]
          have : ¬ Conn adj i j := fun hc => hfresh j _ hj hc (by omega)
          simp [this]

end Forcepho.Linked
