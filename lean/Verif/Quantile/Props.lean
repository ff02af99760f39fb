import Verif.Quantile.Model
import Mathlib.Tactic.Linarith
import Mathlib.Tactic.FieldSimp
import Mathlib.Tactic.Ring
import Mathlib.Tactic.Positivity
import Mathlib.Tactic.NormNum
import Mathlib.Data.Rat.Floor

/-! # Theorems about percentiles (C92, C93) and combined chains (C91) -/

set_option autoImplicit false
set_option linter.unusedSectionVars false

namespace Forcepho.Quantile

variable {K : Type} [Field K] [LinearOrder K] [IsStrictOrderedRing K] [FloorRing K]

/-! ## C92: percentiles -/

lemma sorted_unique (xs s : List K) (hp : s.Perm xs) (hs : s.Pairwise (· ≤ ·)) :
    xs.insertionSort (· ≤ ·) = s :=
  List.Perm.eq_of_pairwise (le := (· ≤ ·)) (fun a b _ _ h1 h2 => le_antisymm h1 h2)
    (List.pairwise_insertionSort (· ≤ ·) xs) hs ((List.perm_insertionSort (· ≤ ·) xs).trans hp.symm)

/-- C92 (definition of the value): with the samples in increasing order `s`, the percentile `100 (j + t) / (n - 1)`
for `0 ≤ t ≤ 1` is the point a fraction `t` of the way from `s j` to `s (j + 1)`. These are all percentiles of two
or more samples; every percentile of one sample is that sample. -/
theorem C92_value (xs s : List K) (hp : s.Perm xs) (hs : s.Pairwise (· ≤ ·)) :
    (∀ (j : Nat) (a b t : K), s[j]? = some a → s[j + 1]? = some b → 0 ≤ t → t ≤ 1 →
      percentile xs (100 * ((j : K) + t) / ((xs.length : K) - 1)) = some (a + t * (b - a))) ∧
    (∀ x p, xs = [x] → 0 ≤ p → p ≤ 100 → percentile xs p = some x) := by
  have hlen : s.length = xs.length := hp.length_eq
  constructor
  · intro j a b t ha hb h0 h1
    obtain ⟨hj1, hb'⟩ := List.getElem?_eq_some_iff.mp hb
    have hn : j + 1 < xs.length := hlen ▸ hj1
    have hnK : ((j : K) + 1) ≤ (xs.length : K) - 1 := by
      have : ((j + 2 : Nat) : K) ≤ (xs.length : K) := by exact_mod_cast hn
      push_cast at this
      linarith
    have hpos : (0 : K) < (xs.length : K) - 1 := by
      have : (0 : K) ≤ j := by positivity
      linarith
    have hj0 : (0 : K) ≤ j := by positivity
    have hp0 : ¬ (xs = [] ∨ 100 * ((j : K) + t) / ((xs.length : K) - 1) < 0 ∨
        100 < 100 * ((j : K) + t) / ((xs.length : K) - 1)) := by
      rintro (h | h | h)
      · rw [h] at hn; simp at hn
      · have : 0 ≤ 100 * ((j : K) + t) / ((xs.length : K) - 1) := by positivity
        exact absurd h (not_lt.mpr this)
      · rw [lt_div_iff₀ hpos] at h
        linarith
    have hcast : ((xs.length - 1 : Nat) : K) = (xs.length : K) - 1 := by
      rw [Nat.cast_sub (by omega)]; simp
    have hv : ((xs.length - 1 : Nat) : K) * (100 * ((j : K) + t) / ((xs.length : K) - 1) / 100) = (j : K) + t := by
      rw [hcast]
      have : (xs.length : K) - 1 ≠ 0 := hpos.ne'
      generalize (xs.length : K) - 1 = d at this ⊢
      field_simp
    unfold percentile
    rw [if_neg hp0]
    dsimp only
    rw [hv, sorted_unique xs s hp hs]
    rcases h1.lt_or_eq with h1 | rfl
    · have hf : ⌊(j : K) + t⌋ = (j : Int) := by
        rw [Int.floor_eq_iff]
        constructor
        · push_cast; linarith
        · push_cast; linarith
      rw [hf]
      have hm : min (((j : Int).toNat) + 1) (xs.length - 1) = j + 1 := by
        rw [Int.toNat_natCast]; omega
      rw [hm, Int.toNat_natCast]
      rw [List.getD_eq_getElem?_getD, List.getD_eq_getElem?_getD, ha, hb]
      simp only [Option.getD_some]
      congr 1; ring
    · have hf : ⌊(j : K) + 1⌋ = ((j + 1 : Nat) : Int) := by
        rw [Int.floor_eq_iff]
        constructor
        · push_cast; linarith
        · push_cast; linarith
      rw [hf, Int.toNat_natCast]
      rw [List.getD_eq_getElem?_getD, hb]
      simp only [Option.getD_some]
      congr 1
      push_cast
      ring
  · rintro x p rfl h0 h1
    have : ¬ ([x] = [] ∨ p < 0 ∨ 100 < p) := by
      rintro (h | h | h)
      · cases h
      · linarith
      · linarith
    unfold percentile
    rw [if_neg this]
    simp

/-- Every percentile of two or more samples is of the form of C92_value. -/
lemma exists_param (n : Nat) (hn : 2 ≤ n) (p : K) (h0 : 0 ≤ p) (h1 : p ≤ 100) :
    ∃ (j : Nat) (t : K), j + 1 < n ∧ 0 ≤ t ∧ t ≤ 1 ∧ p = 100 * ((j : K) + t) / ((n : K) - 1) ∧
      (t = 1 → p = 100) := by
  have hnK : (2 : K) ≤ n := by exact_mod_cast hn
  have hpos : (0 : K) < (n : K) - 1 := by linarith
  rcases h1.lt_or_eq with h1 | rfl
  · obtain ⟨v, hv⟩ : ∃ v, v = ((n : K) - 1) * (p / 100) := ⟨_, rfl⟩
    have v0 : 0 ≤ v := by rw [hv]; positivity
    have v1 : v < (n : K) - 1 := by
      rw [hv]
      have : p / 100 < 1 := by linarith
      nlinarith
    have hf0 : 0 ≤ ⌊v⌋ := Int.floor_nonneg.mpr v0
    obtain ⟨j, hj⟩ := Int.eq_ofNat_of_zero_le hf0
    have hfl := Int.floor_le v
    have hfu := Int.lt_floor_add_one v
    rw [hj] at hfl hfu
    push_cast at hfl hfu
    refine ⟨j, v - j, ?_, by linarith, by linarith, ?_, ?_⟩
    · have : ((j : K) + 1) < n := by linarith
      exact_mod_cast this
    · rw [add_sub_cancel, hv]
      have := hpos.ne'
      generalize (n : K) - 1 = d at this ⊢
      field_simp
    · intro h; linarith
  · refine ⟨n - 2, 1, by omega, zero_le_one, le_refl _, ?_, fun _ => rfl⟩
    have : ((n - 2 : Nat) : K) = (n : K) - 2 := by rw [Nat.cast_sub hn]; simp
    rw [this]
    have := hpos.ne'
    have e : (n : K) - 2 + 1 = (n : K) - 1 := by ring
    rw [e]
    field_simp

lemma pairwise_le (s : List K) (hs : s.Pairwise (· ≤ ·)) (i j : Nat) (a b : K) (hij : i ≤ j)
    (ha : s[i]? = some a) (hb : s[j]? = some b) : a ≤ b := by
  rcases hij.lt_or_eq with h | rfl
  · obtain ⟨hi, rfl⟩ := List.getElem?_eq_some_iff.mp ha
    obtain ⟨hj, rfl⟩ := List.getElem?_eq_some_iff.mp hb
    exact List.pairwise_iff_getElem.mp hs i j hi hj h
  · rw [ha] at hb; exact (Option.some.inj hb).le

/-- C92 (range, order): percentiles exist for every percentage, lie between two samples, grow with the
percentage, and do not depend on the order of the samples; 0 and 100 give the smallest and the largest sample. -/
theorem C92_range (xs : List K) (hne : xs ≠ []) :
    (∀ p, 0 ≤ p → p ≤ 100 → ∃ v, percentile xs p = some v ∧ (∃ x ∈ xs, x ≤ v) ∧ ∃ y ∈ xs, v ≤ y) ∧
    (∀ p q v w, p ≤ q → percentile xs p = some v → percentile xs q = some w → v ≤ w) ∧
    (∀ ys p, ys.Perm xs → percentile ys p = percentile xs p) ∧
    (∃ v, percentile xs 0 = some v ∧ v ∈ xs ∧ ∀ x ∈ xs, v ≤ x) ∧
    (∃ v, percentile xs 100 = some v ∧ v ∈ xs ∧ ∀ x ∈ xs, x ≤ v) := by
  obtain ⟨s, hsd⟩ : ∃ s, s = xs.insertionSort (· ≤ ·) := ⟨_, rfl⟩
  have hp : s.Perm xs := hsd ▸ List.perm_insertionSort (· ≤ ·) xs
  have hs : s.Pairwise (· ≤ ·) := hsd ▸ List.pairwise_insertionSort (· ≤ ·) xs
  have hlen : s.length = xs.length := hp.length_eq
  obtain ⟨C1, C2⟩ := C92_value xs s hp hs
  have dom : ∀ p v, percentile xs p = some v → 0 ≤ p ∧ p ≤ 100 := by
    intro p v h
    unfold percentile at h
    by_cases hc : xs = [] ∨ p < 0 ∨ 100 < p
    · rw [if_pos hc] at h; cases h
    · push Not at hc
      exact ⟨hc.2.1, hc.2.2⟩
  by_cases h1 : xs.length = 1
  · obtain ⟨x, rfl⟩ := List.length_eq_one_iff.mp h1
    refine ⟨?_, ?_, ?_, ?_, ?_⟩
    · intro p h0 h1
      exact ⟨x, C2 x p rfl h0 h1, ⟨x, by simp, le_refl _⟩, ⟨x, by simp, le_refl _⟩⟩
    · intro p q v w _ hv hw
      have a := C2 x p rfl (dom p v hv).1 (dom p v hv).2
      have b := C2 x q rfl (dom q w hw).1 (dom q w hw).2
      rw [a] at hv; rw [b] at hw
      rw [← Option.some.inj hv, ← Option.some.inj hw]
    · intro ys p hy
      rw [List.perm_singleton.mp hy]
    · exact ⟨x, C2 x 0 rfl (le_refl _) (by norm_num), by simp, by simp⟩
    · exact ⟨x, C2 x 100 rfl (by norm_num) (le_refl _), by simp, by simp⟩
  · have hn : 2 ≤ xs.length := by
      have := List.length_pos_iff.mpr hne
      omega
    have get : ∀ j, j < xs.length → ∃ a, s[j]? = some a ∧ a ∈ xs := by
      intro j hj
      have hj' : j < s.length := by rw [hlen]; exact hj
      exact ⟨s[j], List.getElem?_eq_getElem hj', hp.mem_iff.mp (List.getElem_mem hj')⟩
    have val : ∀ p, 0 ≤ p → p ≤ 100 → ∃ (j : Nat) (t a b : K), s[j]? = some a ∧ s[j + 1]? = some b ∧ a ∈ xs ∧ b ∈ xs ∧
        0 ≤ t ∧ t ≤ 1 ∧ p = 100 * ((j : K) + t) / ((xs.length : K) - 1) ∧ (t = 1 → p = 100) ∧
        percentile xs p = some (a + t * (b - a)) ∧ a ≤ a + t * (b - a) ∧ a + t * (b - a) ≤ b := by
      intro p h0 h1
      obtain ⟨j, t, g1, g2, g3, g4, g5⟩ := exists_param xs.length hn p h0 h1
      obtain ⟨a, ha, ha'⟩ := get j (by omega)
      obtain ⟨b, hb, hb'⟩ := get (j + 1) g1
      have hab := pairwise_le s hs j (j + 1) a b (by omega) ha hb
      refine ⟨j, t, a, b, ha, hb, ha', hb', g2, g3, g4, g5, ?_, ?_, ?_⟩
      · rw [g4]; exact C1 j a b t ha hb g2 g3
      · have : 0 ≤ t * (b - a) := mul_nonneg g2 (by linarith)
        linarith
      · nlinarith
    have hnK : (2 : K) ≤ xs.length := by exact_mod_cast hn
    have hpos : (0 : K) < (xs.length : K) - 1 := by linarith
    refine ⟨?_, ?_, ?_, ?_, ?_⟩
    · intro p h0 h1
      obtain ⟨j, t, a, b, -, -, ha, hb, -, -, -, -, hv, l1, l2⟩ := val p h0 h1
      exact ⟨_, hv, ⟨a, ha, l1⟩, ⟨b, hb, l2⟩⟩
    · intro p q v w hpq hv hw
      obtain ⟨j, t, a, b, ha, hb, -, -, t0, t1, tp, -, hv', -, l2⟩ := val p (dom p v hv).1 (dom p v hv).2
      obtain ⟨k, u, c, d, hc, hd, -, -, u0, u1, up, -, hw', m1, -⟩ := val q (dom q w hw).1 (dom q w hw).2
      rw [hv'] at hv; rw [hw'] at hw
      rw [← Option.some.inj hv, ← Option.some.inj hw]
      have hle : (j : K) + t ≤ (k : K) + u := by
        rw [tp, up, div_le_div_iff_of_pos_right hpos] at hpq
        linarith
      rcases lt_trichotomy j k with h | h | h
      · have := pairwise_le s hs (j + 1) k b c h hb hc
        linarith
      · subst h
        rw [ha] at hc; rw [hb] at hd
        obtain rfl := Option.some.inj hc
        obtain rfl := Option.some.inj hd
        have hab := pairwise_le s hs j (j + 1) a b (by omega) ha hb
        have : t ≤ u := by linarith
        nlinarith
      · have hkj : (k : K) + 1 ≤ j := by exact_mod_cast h
        have ht : t = 0 := by linarith
        have hu : u = 1 := by linarith
        have hjk : (j : K) = ((k + 1 : Nat) : K) := by push_cast; linarith
        have hjk' : j = k + 1 := by exact_mod_cast hjk
        subst hjk'
        rw [hd] at ha
        obtain rfl := Option.some.inj ha
        rw [ht, hu]
        linarith
    · intro ys p hy
      unfold percentile
      have e1 : ys.length = xs.length := hy.length_eq
      have e2 : ys = [] ↔ xs = [] := by rw [← List.length_eq_zero_iff, ← List.length_eq_zero_iff, e1]
      rw [sorted_unique ys s (hp.trans hy.symm) hs, ← hsd, e1]
      simp only [e2]
    · obtain ⟨a, ha, ha'⟩ := get 0 (by omega)
      obtain ⟨b, hb, -⟩ := get 1 (by omega)
      have h := C1 0 a b 0 ha hb (le_refl _) zero_le_one
      refine ⟨a, ?_, ha', ?_⟩
      · simpa using h
      · intro x hx
        obtain ⟨i, hi, rfl⟩ := List.getElem_of_mem (hp.mem_iff.mpr hx)
        exact pairwise_le s hs 0 i a _ (by omega) ha (List.getElem?_eq_getElem hi)
    · obtain ⟨a, ha, -⟩ := get (xs.length - 2) (by omega)
      obtain ⟨b, hb, hb'⟩ := get (xs.length - 1) (by omega)
      have e : xs.length - 2 + 1 = xs.length - 1 := by omega
      have h := C1 (xs.length - 2) a b 1 ha (by rw [e]; exact hb) zero_le_one (le_refl _)
      refine ⟨b, ?_, hb', ?_⟩
      · have hc : ((xs.length - 2 : Nat) : K) = (xs.length : K) - 2 := by rw [Nat.cast_sub hn]; simp
        have hq : 100 * (((xs.length - 2 : Nat) : K) + 1) / ((xs.length : K) - 1) = 100 := by
          rw [hc]
          have := hpos.ne'
          have e : (xs.length : K) - 2 + 1 = (xs.length : K) - 1 := by ring
          rw [e]
          field_simp
        rw [hq] at h
        rw [h]; congr 1; ring
      · intro x hx
        obtain ⟨i, hi, rfl⟩ := List.getElem_of_mem (hp.mem_iff.mpr hx)
        exact pairwise_le s hs i (xs.length - 1) _ b (by rw [hlen] at hi; omega) (List.getElem?_eq_getElem hi) hb

lemma countP_take (s : List K) (P : K → Bool) (k : Nat) (hk : k ≤ s.length)
    (h : ∀ (i : Nat) (a : K), i < k → s[i]? = some a → P a = true) : k ≤ s.countP P := by
  have h1 : (s.take k).countP P = k := by
    rw [List.countP_eq_length.mpr]
    · rw [List.length_take]; omega
    · intro a ha
      obtain ⟨i, hi, rfl⟩ := List.getElem_of_mem ha
      rw [List.length_take] at hi
      refine h i _ (by omega) ?_
      rw [List.getElem_take, List.getElem?_eq_getElem]
  have h2 : s.countP P = (s.take k).countP P + (s.drop k).countP P := by
    rw [← List.countP_append, List.take_append_drop]
  omega

lemma countP_drop (s : List K) (P : K → Bool) (k : Nat)
    (h : ∀ (i : Nat) (a : K), k ≤ i → s[i]? = some a → P a = true) : s.length - k ≤ s.countP P := by
  have h1 : (s.drop k).countP P = s.length - k := by
    rw [List.countP_eq_length.mpr]
    · rw [List.length_drop]
    · intro a ha
      obtain ⟨i, hi, rfl⟩ := List.getElem_of_mem ha
      refine h (k + i) _ (by omega) ?_
      rw [List.getElem_drop]
      exact List.getElem?_eq_getElem _
  have h2 : s.countP P = (s.take k).countP P + (s.drop k).countP P := by
    rw [← List.countP_append, List.take_append_drop]
  omega

/-- C92 (coverage): more than the fraction `p / 100` of `n - 1` samples is at or below the percentile `p`, and at
least the fraction `1 - p / 100` of `n - 1` is at or above it. -/
theorem C92_coverage (xs : List K) (p v : K) (h : percentile xs p = some v) :
    ((xs.length : K) - 1) * (p / 100) < xs.countP (fun x => decide (x ≤ v)) ∧
    ((xs.length : K) - 1) * (1 - p / 100) ≤ xs.countP (fun x => decide (v ≤ x)) := by
  have hc : ¬ (xs = [] ∨ p < 0 ∨ 100 < p) := by
    intro hc
    unfold percentile at h
    rw [if_pos hc] at h; cases h
  push Not at hc
  obtain ⟨hne, h0, h1⟩ := hc
  obtain ⟨s, hsd⟩ : ∃ s, s = xs.insertionSort (· ≤ ·) := ⟨_, rfl⟩
  have hp : s.Perm xs := hsd ▸ List.perm_insertionSort (· ≤ ·) xs
  have hs : s.Pairwise (· ≤ ·) := hsd ▸ List.pairwise_insertionSort (· ≤ ·) xs
  have hlen : s.length = xs.length := hp.length_eq
  obtain ⟨C1, C2⟩ := C92_value xs s hp hs
  rw [← hp.countP_eq, ← hp.countP_eq]
  by_cases h1' : xs.length = 1
  · obtain ⟨x, rfl⟩ := List.length_eq_one_iff.mp h1'
    rw [C2 x p rfl h0 h1] at h
    obtain rfl := Option.some.inj h
    rw [List.perm_singleton.mp hp]
    simp
  · have hn : 2 ≤ xs.length := by
      have := List.length_pos_iff.mpr hne
      omega
    have hnK : (2 : K) ≤ xs.length := by exact_mod_cast hn
    have hpos : (0 : K) < (xs.length : K) - 1 := by linarith
    obtain ⟨j, t, g1, g2, g3, g4, g5⟩ := exists_param xs.length hn p h0 h1
    have hj : j + 1 < s.length := by omega
    have ha : s[j]? = some s[j] := List.getElem?_eq_getElem _
    have hb : s[j + 1]? = some s[j + 1] := List.getElem?_eq_getElem _
    generalize s[j] = a at ha
    generalize s[j + 1] = b at hb
    have hab := pairwise_le s hs j (j + 1) a b (by omega) ha hb
    have hv := C1 j a b t ha hb g2 g3
    rw [← g4, h] at hv
    have hv := Option.some.inj hv
    have hpv : ((xs.length : K) - 1) * (p / 100) = (j : K) + t := by
      rw [g4]
      have := hpos.ne'
      generalize (xs.length : K) - 1 = d at this ⊢
      field_simp
    have hav : a ≤ v := by
      have : 0 ≤ t * (b - a) := mul_nonneg g2 (by linarith)
      linarith
    have hvb : v ≤ b := by rw [hv]; nlinarith
    constructor
    · rw [hpv]
      rcases g3.lt_or_eq with g3 | g3
      · have := countP_take s (fun x => decide (x ≤ v)) (j + 1) (by omega) (by
          intro i c hi hc
          have := pairwise_le s hs i j c a (by omega) hc ha
          exact decide_eq_true (by linarith))
        have : ((j + 1 : Nat) : K) ≤ (s.countP fun x => decide (x ≤ v) : Nat) := by exact_mod_cast this
        push_cast at this
        linarith
      · have hvb' : v = b := by rw [hv, g3]; ring
        have := countP_take s (fun x => decide (x ≤ v)) (j + 2) (by omega) (by
          intro i c hi hc
          have := pairwise_le s hs i (j + 1) c b (by omega) hc hb
          exact decide_eq_true (by linarith))
        have : ((j + 2 : Nat) : K) ≤ (s.countP fun x => decide (x ≤ v) : Nat) := by exact_mod_cast this
        push_cast at this
        linarith
    · have e : ((xs.length : K) - 1) * (1 - p / 100) = (xs.length : K) - 1 - ((j : K) + t) := by
        rw [mul_sub, hpv]; ring
      rw [e]
      have := countP_drop s (fun x => decide (v ≤ x)) (j + 1) (by
          intro i c hi hc
          have := pairwise_le s hs (j + 1) i b c hi hb hc
          exact decide_eq_true (by linarith))
      have h2 : s.length ≤ (s.countP fun x => decide (v ≤ x)) + (j + 1) := by omega
      have h3 : (xs.length : K) ≤ ((s.countP fun x => decide (v ≤ x) : Nat) : K) + ((j : K) + 1) := by
        rw [← hlen]; exact_mod_cast h2
      linarith

lemma allSome_spec {α : Type} (l : List (Option α)) (out : List α) :
    allSome l = some out ↔ l = out.map some := by
  induction l generalizing out with
  | nil => cases out <;> simp [allSome]
  | cons a rest ih =>
    cases a with
    | none => cases out <;> simp [allSome]
    | some a =>
      simp only [allSome, Option.map_eq_some_iff]
      constructor
      · rintro ⟨o, ho, rfl⟩
        rw [(ih o).mp ho]; rfl
      · intro h
        cases out with
        | nil => cases h
        | cons b bs =>
          simp only [List.map_cons, List.cons.injEq, Option.some.injEq] at h
          exact ⟨bs, (ih bs).mpr h.2, by rw [h.1]⟩

lemma allSome_none {α : Type} (l : List (Option α)) : allSome l = none ↔ none ∈ l := by
  induction l with
  | nil => simp [allSome]
  | cons a rest ih =>
    cases a with
    | none => simp [allSome]
    | some a => simp [allSome, ih]

/-- C92 (catalog): the percentile catalog has the same columns in the same order; columns without samples are
unchanged; in a sample column entry `k` of row `i` is the percentile `k` of the samples of row `i`; the header
lists exactly the sample columns. It exists if every sample column has samples and the percentages are valid. -/
theorem C92_catalog (cat : List (String × Col K)) (ps : List K) :
    (∀ out hdr, pctileCat cat ps = some (out, hdr) →
      out.length = cat.length ∧
      (∀ (i : Nat) (name : String) (vals : List K), cat[i]? = some (name, .scalar vals) →
        out[i]? = some (name, .scalar vals)) ∧
      (∀ (i : Nat) (name : String) (vals : List (List K)), cat[i]? = some (name, .samples vals) →
        ∃ o : List (List K), out[i]? = some (name, .samples o) ∧ o.length = vals.length ∧
          ∀ (r : Nat) (row orow : List K), vals[r]? = some row → o[r]? = some orow →
            orow.length = ps.length ∧ ∀ (k : Nat) (p v : K), ps[k]? = some p → orow[k]? = some v →
              percentile row p = some v) ∧
      (∀ name, name ∈ hdr ↔ ∃ vals, (name, Col.samples vals) ∈ cat)) ∧
    ((∀ p ∈ ps, 0 ≤ p ∧ p ≤ 100) → (∀ name vals, (name, Col.samples vals) ∈ cat → ∀ row ∈ vals, row ≠ []) →
      (pctileCat cat ps).isSome) := by
  constructor
  · intro out hdr h
    unfold pctileCat at h
    obtain ⟨o, ho, he⟩ := Option.map_eq_some_iff.mp h
    rw [Prod.mk.injEq] at he
    obtain ⟨rfl, rfl⟩ := he
    rw [allSome_spec] at ho
    have hl : o.length = cat.length := by
      have := congrArg List.length ho
      simpa using this.symm
    have hget : ∀ (i : Nat) (c : String × Col K), cat[i]? = some c →
        ∃ d, o[i]? = some d ∧ pctileCol ps c.1 c.2 = some d := by
      intro i c hc
      have hi : i < o.length := by rw [hl]; exact (List.getElem?_eq_some_iff.mp hc).1
      refine ⟨o[i], List.getElem?_eq_getElem hi, ?_⟩
      have := congrArg (fun l => l[i]?) ho
      rw [List.getElem?_map, List.getElem?_map, hc, List.getElem?_eq_getElem hi] at this
      simpa using this
    refine ⟨hl, ?_, ?_, ?_⟩
    · intro i name vals hc
      obtain ⟨d, hd, he⟩ := hget i _ hc
      rw [hd]; exact he.symm
    · intro i name vals hc
      obtain ⟨d, hd, he⟩ := hget i _ hc
      simp only [pctileCol] at he
      obtain ⟨v, hv, rfl⟩ := Option.map_eq_some_iff.mp he
      rw [allSome_spec] at hv
      refine ⟨v, hd, ?_, ?_⟩
      · have := congrArg List.length hv
        simpa using this.symm
      · intro r row orow hr hor
        have := congrArg (fun l => l[r]?) hv
        rw [List.getElem?_map, List.getElem?_map, hr, hor] at this
        have := Option.some.inj this
        rw [allSome_spec] at this
        constructor
        · have := congrArg List.length this
          simpa using this.symm
        · intro k p w hk hw
          have := congrArg (fun l => l[k]?) this
          rw [List.getElem?_map, List.getElem?_map, hk, hw] at this
          exact Option.some.inj this
    · intro name
      constructor
      · intro h
        obtain ⟨c, hc, rfl⟩ := List.mem_map.mp h
        rw [List.mem_filter] at hc
        obtain ⟨n, v⟩ := c
        cases v with
        | scalar vals => simp [isSamples] at hc
        | samples vals => exact ⟨vals, hc.1⟩
      · rintro ⟨vals, hv⟩
        exact List.mem_map.mpr ⟨(name, .samples vals), List.mem_filter.mpr ⟨hv, rfl⟩, rfl⟩
  · intro hps hrows
    unfold pctileCat
    rw [Option.isSome_map]
    by_contra hcon
    rw [Option.not_isSome_iff_eq_none, allSome_none] at hcon
    obtain ⟨c, hc, he⟩ := List.mem_map.mp hcon
    obtain ⟨n, v⟩ := c
    cases v with
    | scalar vals => cases he
    | samples vals =>
      simp only [pctileCol] at he
      rw [Option.map_eq_none_iff, allSome_none] at he
      obtain ⟨row, hrow, he⟩ := List.mem_map.mp he
      rw [allSome_none] at he
      obtain ⟨p, hp, he⟩ := List.mem_map.mp he
      obtain ⟨v, hv, -⟩ := (C92_range row (hrows n vals hc row hrow)).1 p (hps p hp).1 (hps p hp).2
      rw [hv] at he; cases he

/-- The median of three samples, and the quarter point of four. -/
example : percentile [3, 1, (2 : ℚ)] 50 = some 2 ∧ percentile [4, 1, 2, (8 : ℚ)] 25 = some (7 / 4) := by
  decide +kernel

example : ∃ s : List ℚ, s.Perm [3, 1, 2] ∧ s.Pairwise (· ≤ ·) := ⟨[1, 2, 3], by decide, by decide⟩

/-! ## C93: quantiles with weights, and spans -/

lemma interpFrom_bounds (lo hi : K) (rest : List (K × K)) :
    ∀ (a u x : K), a ≤ x → lo ≤ u → u ≤ hi → (∀ p ∈ rest, lo ≤ p.2 ∧ p.2 ≤ hi) →
      lo ≤ interpFrom a u rest x ∧ interpFrom a u rest x ≤ hi := by
  induction rest with
  | nil => intro a u x _ h1 h2 _; exact ⟨h1, h2⟩
  | cons p rest ih =>
    obtain ⟨b, v⟩ := p
    intro a u x hx h1 h2 hr
    obtain ⟨v1, v2⟩ := hr (b, v) (by simp)
    dsimp only at v1 v2
    unfold interpFrom
    by_cases hb : x < b
    · rw [if_pos hb]
      have hd : 0 < b - a := by linarith
      have e : u + (v - u) / (b - a) * (x - a) = u + (v - u) * ((x - a) / (b - a)) := by ring
      rw [e]
      have t0 : 0 ≤ (x - a) / (b - a) := div_nonneg (by linarith) hd.le
      have t1 : (x - a) / (b - a) ≤ 1 := by rw [div_le_one hd]; linarith
      generalize (x - a) / (b - a) = t at t0 t1
      constructor <;> nlinarith
    · rw [if_neg hb]
      exact ih b v x (not_lt.mp hb) v1 v2 fun p hp => hr p (List.mem_cons_of_mem _ hp)

lemma interpFrom_at (rest : List (K × K)) : ∀ (a u : K) (x : K) (j : Nat) (p q : K × K),
    ((a, u) :: rest).Pairwise (fun a b => a.1 ≤ b.1) →
    ((a, u) :: rest)[j]? = some p → ((a, u) :: rest)[j + 1]? = some q → p.1 ≤ x → x < q.1 →
    interpFrom a u rest x = p.2 + (q.2 - p.2) / (q.1 - p.1) * (x - p.1) := by
  induction rest with
  | nil => intro a u x j p q _ _ hq; simp at hq
  | cons r rest ih =>
    obtain ⟨b, v⟩ := r
    intro a u x j p q hs hp hq h1 h2
    unfold interpFrom
    cases j with
    | zero =>
      simp only [List.getElem?_cons_zero, Option.some.injEq, Nat.zero_add, List.getElem?_cons_succ] at hp hq
      subst hp hq
      rw [if_pos h2]
    | succ j =>
      rw [List.getElem?_cons_succ] at hp hq
      have hb : b ≤ p.1 := by
        cases j with
        | zero =>
          simp only [List.getElem?_cons_zero, Option.some.injEq] at hp
          rw [← hp]
        | succ j =>
          rw [List.getElem?_cons_succ] at hp
          exact (List.pairwise_cons.mp (List.pairwise_cons.mp hs).2).1 p (List.mem_of_getElem? hp)
      rw [if_neg (not_lt.mpr (hb.trans h1))]
      exact ih b v x j p q (List.pairwise_cons.mp hs).2 hp hq h1 h2

lemma interpFrom_last (rest : List (K × K)) : ∀ (a u : K) (x : K),
    (∀ p ∈ rest, p.1 ≤ x) → interpFrom a u rest x = (((a, u) :: rest).getLast (by simp)).2 := by
  induction rest with
  | nil => intro a u x _; rfl
  | cons r rest ih =>
    obtain ⟨b, v⟩ := r
    intro a u x h
    unfold interpFrom
    rw [if_neg (not_lt.mpr (h (b, v) (by simp))), ih b v x fun p hp => h p (List.mem_cons_of_mem _ hp)]
    rw [List.getLast_cons (a := (a, u)) (by simp)]

lemma cumsum_length (ws : List K) : ∀ acc, (cumsum acc ws).length = ws.length := by
  induction ws with
  | nil => intro acc; rfl
  | cons w ws ih => intro acc; simp [cumsum, ih]

lemma cumsum_get (ws : List K) : ∀ (acc : K) (j : Nat) (c : K), (cumsum acc ws)[j]? = some c →
    c = acc + (ws.take (j + 1)).sum := by
  induction ws with
  | nil => intro acc j c h; simp [cumsum] at h
  | cons w ws ih =>
    intro acc j c h
    cases j with
    | zero => simp [cumsum] at h; simp [h]
    | succ j =>
      rw [cumsum, List.getElem?_cons_succ] at h
      rw [ih _ j c h, List.take_succ_cons, List.sum_cons, add_assoc]

/-- C93 (range): for non-negative weights with a positive total without that of the largest sample, weighted
quantiles exist and lie between two samples, whatever order equal samples are sorted in. -/
theorem C93_range_partial (xs ws : List K) (sorted : List (K × K)) (hs : IsSorted xs ws sorted)
    (hlen : xs.length = ws.length) (hw : 0 < ((sorted.map (·.2)).dropLast).sum)
    (q : K) (h0 : 0 ≤ q) (h1 : q ≤ 1) :
    ∃ v, weightedQuantile xs ws sorted q = some v ∧ (∃ x ∈ xs, x ≤ v) ∧ ∃ y ∈ xs, v ≤ y := by
  have hq : ¬ (q < 0 ∨ 1 < q) := by rintro (h | h) <;> linarith
  have hl : sorted.length = xs.length := by
    rw [hs.1.length_eq, List.length_zip, ← hlen, min_self]
  obtain ⟨n, hn⟩ : ∃ n, sorted.length = n + 2 := by
    have : 2 ≤ sorted.length := by
      by_contra hc
      push Not at hc
      have : ((sorted.map (·.2)).dropLast) = [] := by
        rw [← List.length_eq_zero_iff, List.length_dropLast, List.length_map]; omega
      rw [this] at hw; simp at hw
    exact ⟨sorted.length - 2, by omega⟩
  have hclen : ((cumsum 0 (sorted.map (·.2))).dropLast).length = n + 1 := by
    rw [List.length_dropLast, cumsum_length, List.length_map]; omega
  have hlast : (cumsum 0 (sorted.map (·.2))).dropLast.getLast? = some ((sorted.map (·.2)).dropLast).sum := by
    rw [List.getLast?_eq_getElem?, hclen]
    have hc : n < ((cumsum 0 (sorted.map (·.2))).dropLast).length := by rw [hclen]; omega
    rw [show n + 1 - 1 = n by omega, List.getElem?_eq_getElem hc]
    congr 1
    rw [List.getElem_dropLast]
    have := cumsum_get (sorted.map (·.2)) 0 n _ (List.getElem?_eq_getElem (by
      rw [cumsum_length, List.length_map]; omega))
    rw [this, zero_add, List.dropLast_eq_take, List.length_map, hn]
    rfl
  unfold weightedQuantile
  rw [if_neg hq, if_neg (by rw [hlen]; simp)]
  dsimp only
  rw [hlast]
  dsimp only
  rw [if_neg hw.ne']
  obtain ⟨cd, hcd⟩ : ∃ cd, cd = (cumsum 0 (sorted.map (·.2))).dropLast.map (· / ((sorted.map (·.2)).dropLast).sum) := ⟨_, rfl⟩
  rw [← hcd]
  have hmem : ∀ p ∈ sorted, p.1 ∈ xs := by
    intro p hp
    exact (List.of_mem_zip (hs.1.mem_iff.mp hp)).1
  obtain ⟨p, rest, rfl⟩ : ∃ p rest, sorted = p :: rest := by
    cases sorted with
    | nil => simp at hn
    | cons p rest => exact ⟨p, rest, rfl⟩
  rw [List.map_cons, List.zip_cons_cons]
  unfold interp
  dsimp only
  rw [if_neg (not_lt.mpr h0)]
  have hne : p :: rest ≠ [] := by simp
  obtain ⟨l, hlm, hll⟩ : ∃ l ∈ (p :: rest), ∀ r ∈ (p :: rest), r.1 ≤ l.1 := by
    refine ⟨(p :: rest).getLast hne, List.getLast_mem hne, ?_⟩
    intro r hr
    obtain ⟨i, hi, rfl⟩ := List.getElem_of_mem hr
    rw [List.getLast_eq_getElem]
    rcases Nat.lt_or_ge i ((p :: rest).length - 1) with h | h
    · exact List.pairwise_iff_getElem.mp hs.2 i _ hi _ h
    · have : i = (p :: rest).length - 1 := by omega
      subst this; exact le_refl _
  have key := interpFrom_bounds p.1 l.1 (cd.zip (rest.map (·.1))) 0 p.1 q h0 (le_refl _) (hll p (by simp)) (by
    intro r hr
    obtain ⟨r', hr', he⟩ := List.mem_map.mp (List.of_mem_zip hr).2
    rw [← he]
    exact ⟨(List.pairwise_cons.mp hs.2).1 r' hr', hll r' (List.mem_cons_of_mem _ hr')⟩)
  exact ⟨_, rfl, ⟨p.1, hmem p (by simp), key.1⟩, ⟨l.1, hmem l hlm, key.2⟩⟩

/-- C93 (equal weights): equal positive weights give the same quantiles as no weights. -/
theorem C93_equal (xs : List K) (w : K) (hw : 0 < w) (hn : 2 ≤ xs.length) (sorted : List (K × K))
    (hs : IsSorted xs (List.replicate xs.length w) sorted) (q : K) :
    weightedQuantile xs (List.replicate xs.length w) sorted q = quantile xs q := by
  unfold weightedQuantile quantile
  by_cases hq : q < 0 ∨ 1 < q
  · rw [if_pos hq, if_pos hq]
  rw [if_neg hq, if_neg hq]
  push Not at hq
  obtain ⟨h0, h1⟩ := hq
  rw [if_neg (by simp)]
  dsimp only
  have hl : sorted.length = xs.length := by
    rw [hs.1.length_eq, List.length_zip, List.length_replicate, min_self]
  have hws : sorted.map (·.2) = List.replicate xs.length w := by
    rw [List.eq_replicate_iff]
    refine ⟨by rw [List.length_map, hl], ?_⟩
    intro b hb
    obtain ⟨p, hp, rfl⟩ := List.mem_map.mp hb
    exact List.eq_of_mem_replicate (List.of_mem_zip (hs.1.mem_iff.mp hp)).2
  have hxs : (sorted.map (·.1)).Perm xs := by
    have := hs.1.map (·.1)
    rwa [List.map_fst_zip (by simp)] at this
  have hsort : (sorted.map (·.1)).Pairwise (· ≤ ·) := by
    rw [List.pairwise_map]; exact hs.2
  rw [hws]
  have hcl : (cumsum 0 (List.replicate xs.length w)).dropLast.length = xs.length - 1 := by
    rw [List.length_dropLast, cumsum_length, List.length_replicate]
  have hcg : ∀ j, j < xs.length - 1 →
      (cumsum 0 (List.replicate xs.length w)).dropLast[j]? = some (((j : K) + 1) * w) := by
    intro j hj
    have hj' : j < (cumsum 0 (List.replicate xs.length w)).dropLast.length := by rw [hcl]; exact hj
    rw [List.getElem?_eq_getElem hj']
    congr 1
    rw [List.getElem_dropLast]
    have := cumsum_get (List.replicate xs.length w) 0 j _ (List.getElem?_eq_getElem (by
      rw [cumsum_length, List.length_replicate]; omega))
    rw [this, zero_add, List.take_replicate, List.sum_replicate, nsmul_eq_mul, min_eq_left (by omega)]
    push_cast; ring
  have hlast : (cumsum 0 (List.replicate xs.length w)).dropLast.getLast? = some (((xs.length : K) - 1) * w) := by
    rw [List.getLast?_eq_getElem?, hcl, hcg _ (by omega)]
    congr 2
    rw [show xs.length - 1 - 1 = xs.length - 2 by omega, Nat.cast_sub hn]
    push_cast; ring
  have hnK : (2 : K) ≤ xs.length := by exact_mod_cast hn
  have hd : (0 : K) < (xs.length : K) - 1 := by linarith
  rw [hlast]
  dsimp only
  rw [if_neg (mul_pos hd hw).ne']
  obtain ⟨pts, hpts⟩ : ∃ pts, pts = (0 :: (cumsum 0 (List.replicate xs.length w)).dropLast.map
      (· / (((xs.length : K) - 1) * w))).zip (sorted.map (·.1)) := ⟨_, rfl⟩
  rw [← hpts]
  have hget : ∀ (j : Nat) (a : K), (sorted.map (·.1))[j]? = some a →
      pts[j]? = some ((j : K) / ((xs.length : K) - 1), a) := by
    intro j a ha
    have hj : j < xs.length := by
      have := (List.getElem?_eq_some_iff.mp ha).1
      rwa [List.length_map, hl] at this
    rw [hpts, List.getElem?_zip_eq_some]
    refine ⟨?_, ha⟩
    cases j with
    | zero => simp
    | succ j =>
      rw [List.getElem?_cons_succ, List.getElem?_map, hcg j (by omega)]
      simp only [Option.map_some]
      congr 1
      push_cast
      have h1 := hd.ne'
      have h2 := hw.ne'
      generalize (xs.length : K) - 1 = d at h1 ⊢
      field_simp
  have hplen : pts.length = xs.length := by
    rw [hpts, List.length_zip, List.length_cons, List.length_map, hcl, List.length_map, hl]; omega
  have hsome : ∀ j, j < xs.length → ∃ a, (sorted.map (·.1))[j]? = some a := by
    intro j hj
    exact ⟨_, List.getElem?_eq_getElem (by rw [List.length_map, hl]; exact hj)⟩
  have hpw : pts.Pairwise fun a b => a.1 ≤ b.1 := by
    rw [List.pairwise_iff_getElem]
    intro i j hi hj hij
    obtain ⟨a, ha⟩ := hsome i (by omega)
    obtain ⟨b, hb⟩ := hsome j (by omega)
    have e1 := hget i a ha
    have e2 := hget j b hb
    rw [List.getElem?_eq_getElem hi] at e1
    rw [List.getElem?_eq_getElem hj] at e2
    rw [Option.some.inj e1, Option.some.inj e2]
    dsimp only
    rw [div_le_div_iff_of_pos_right hd]
    exact_mod_cast hij.le
  obtain ⟨C1, -⟩ := C92_value xs (sorted.map (·.1)) hxs hsort
  obtain ⟨j, t, g1, g2, g3, g4, g5⟩ := exists_param xs.length hn (100 * q) (by linarith) (by linarith)
  obtain ⟨a, ha⟩ := hsome j (by omega)
  obtain ⟨b, hb⟩ := hsome (j + 1) g1
  have hqv : q = ((j : K) + t) / ((xs.length : K) - 1) := by
    rw [mul_div_assoc] at g4
    linarith
  rw [g4, C1 j a b t ha hb g2 g3]
  obtain ⟨f, rest, hfr⟩ : ∃ f rest, pts = (0, f) :: rest := by
    obtain ⟨f, hf⟩ := hsome 0 (by omega)
    have := hget 0 f hf
    cases hp : pts with
    | nil => rw [hp] at hplen; simp at hplen; omega
    | cons p rest =>
      rw [hp] at this
      simp at this
      exact ⟨f, rest, by rw [this]⟩
  have hja := hget j a ha
  have hjb := hget (j + 1) b hb
  rw [hfr] at hja hjb hpw
  rw [hfr]
  unfold interp
  dsimp only
  rw [if_neg (not_lt.mpr h0)]
  congr 1
  rcases g3.lt_or_eq with g3 | g3
  · rw [interpFrom_at rest 0 f q j _ _ hpw hja hjb]
    · dsimp only
      rw [hqv]
      have h1 := hd.ne'
      push_cast
      generalize (xs.length : K) - 1 = d at h1 ⊢
      field_simp
      ring
    · dsimp only
      rw [hqv, div_le_div_iff_of_pos_right hd]; linarith
    · dsimp only
      rw [hqv, div_lt_div_iff_of_pos_right hd]; push_cast; linarith
  · have hq1 : q = 1 := by
      have := g5 g3
      linarith
    subst g3
    rw [hq1]
    have hj1 : (j : K) + 1 = (xs.length : K) - 1 := by
      rw [hq1, eq_div_iff hd.ne'] at hqv
      linarith
    have hj2 : j + 2 = xs.length := by
      have : ((j + 2 : Nat) : K) = (xs.length : K) := by push_cast; linarith
      exact_mod_cast this
    rw [interpFrom_last]
    · rw [hfr] at hplen
      have : (((0, f) :: rest).getLast (by simp)) = ((((j + 1 : Nat) : K)) / ((xs.length : K) - 1), b) := by
        rw [List.getLast_eq_getElem]
        have := (List.getElem?_eq_some_iff.mp hjb).2
        have hi : ((0, f) :: rest).length - 1 = j + 1 := by omega
        simp only [hi]
        exact this
      rw [this]
      ring
    · intro p hp
      obtain ⟨i, hi, rfl⟩ := List.getElem_of_mem (List.mem_cons_of_mem (0, f) hp)
      have hi' : i < xs.length := by rw [← hplen, hfr]; exact hi
      obtain ⟨c, hc⟩ := hsome i hi'
      have e := hget i c hc
      rw [hfr, List.getElem?_eq_getElem hi] at e
      rw [Option.some.inj e]
      dsimp only
      rw [div_le_one hd]
      have : ((i + 1 : Nat) : K) ≤ xs.length := by exact_mod_cast hi'
      push_cast at this
      linarith

/-- C93 is refuted for weights that differ: the weight of the largest sample is never used, so a largest sample
of weight zero still is the quantile one, and any other weight for it changes nothing. -/
theorem C93_refuted :
    (∀ (s : List (K × K)) (x w w' q : K) (xs ws ws' : List K), xs.length = ws.length → xs.length = ws'.length →
      weightedQuantile xs ws (s ++ [(x, w)]) q = weightedQuantile xs ws' (s ++ [(x, w')]) q) ∧
    (∃ (xs ws : List K) (sorted : List (K × K)), IsSorted xs ws sorted ∧ ws = [1, 1, 0] ∧
      weightedQuantile xs ws sorted 1 = some 3 ∧ xs = [1, 2, 3]) := by
  constructor
  · intro s x w w' q xs ws ws' h1 h2
    unfold weightedQuantile
    rw [← h1, ← h2]
    have hc : ∀ (l : List K) (acc v : K), (cumsum acc (l ++ [v])).dropLast = cumsum acc l := by
      intro l
      induction l with
      | nil => intro acc v; rfl
      | cons a l ih =>
        intro acc v
        rw [List.cons_append, cumsum, cumsum, List.dropLast_cons_of_ne_nil, ih]
        cases l <;> simp [cumsum]
    simp only [List.map_append, List.map_cons, List.map_nil, hc]
  · refine ⟨[1, 2, 3], [1, 1, 0], [(1, 1), (2, 1), (3, 0)], ⟨List.Perm.refl _, ?_⟩, rfl, ?_, rfl⟩
    · simp
      norm_num
    · have h2 : (1 : K) + 1 ≠ 0 := by norm_num
      have h3 : ¬ ((1 : K) < 0 ∨ (1 : K) < 1) := by
        rintro (h | h)
        · exact absurd h (by norm_num)
        · exact lt_irrefl _ h
      have h4 : ¬ ((1 : K) < 1 / (1 + 1)) := by norm_num
      have h5 : ((1 : K) + 1) / (1 + 1) = 1 := div_self h2
      simp [weightedQuantile, cumsum, interp, interpFrom, h2]
      norm_num

/-- C93 (spans): the span computed for a fraction `f` of the samples holds at least the fraction `f` of `n - 1`
samples, less one. -/
theorem C93_span (xs : List K) (f lo hi : K) (h : spanOf xs f = some (lo, hi)) :
    ((xs.length : K) - 1) * f - 1 < xs.countP (fun x => decide (lo ≤ x ∧ x ≤ hi)) := by
  unfold spanOf at h
  cases hl : quantile xs (1 / 2 - 1 / 2 * f) with
  | none => rw [hl] at h; cases h
  | some a =>
    cases hh : quantile xs (1 / 2 + 1 / 2 * f) with
    | none => rw [hl, hh] at h; cases h
    | some b =>
      rw [hl, hh] at h
      simp only [Option.some.injEq, Prod.mk.injEq] at h
      obtain ⟨rfl, rfl⟩ := h
      have ha : percentile xs (100 * (1 / 2 - 1 / 2 * f)) = some a := by
        unfold quantile at hl
        split at hl
        · cases hl
        · exact hl
      have hb : percentile xs (100 * (1 / 2 + 1 / 2 * f)) = some b := by
        unfold quantile at hh
        split at hh
        · cases hh
        · exact hh
      have c1 := (C92_coverage xs _ a ha).2
      have c2 := (C92_coverage xs _ b hb).1
      have key : ∀ l : List K, l.countP (fun x => decide (a ≤ x)) + l.countP (fun x => decide (x ≤ b)) ≤
          l.countP (fun x => decide (a ≤ x ∧ x ≤ b)) + l.length := by
        intro l
        induction l with
        | nil => simp
        | cons x l ih =>
          simp only [List.countP_cons, List.length_cons]
          by_cases h1 : a ≤ x <;> by_cases h2 : x ≤ b <;>
            simp only [h1, h2, decide_true, decide_false, and_true, and_false, if_true, Bool.false_eq_true, if_false] <;> omega
      have k := key xs
      have k' : ((xs.countP (fun x => decide (a ≤ x)) : Nat) : K) + ((xs.countP (fun x => decide (x ≤ b)) : Nat) : K) ≤
          ((xs.countP (fun x => decide (a ≤ x ∧ x ≤ b)) : Nat) : K) + (xs.length : K) := by exact_mod_cast k
      have e1 : ((xs.length : K) - 1) * (1 - 100 * (1 / 2 - 1 / 2 * f) / 100) = ((xs.length : K) - 1) * (1 / 2 + 1 / 2 * f) := by
        ring
      have e2 : ((xs.length : K) - 1) * (100 * (1 / 2 + 1 / 2 * f) / 100) = ((xs.length : K) - 1) * (1 / 2 + 1 / 2 * f) := by
        ring
      rw [e1] at c1
      rw [e2] at c2
      linarith

example : spanOf [1, 2, 3, 4, (5 : ℚ)] (1 / 2) = some (2, 4) := by decide +kernel
example : weightedQuantile [2, 1, (4 : ℚ)] [1, 1, 1] [(1, 1), (2, 1), (4, 1)] (3 / 4) = some 3 := by decide +kernel

/-! ## C91: combined chains -/

lemma indices_ok (mid : List Ident) (hn : mid.Nodup) (idx : String → Nat) (sub : List String)
    (h : ∀ s ∈ sub, mid[idx s]? = some (.str s)) : indices mid sub = .ok (sub.map idx) := by
  induction sub with
  | nil => rfl
  | cons s rest ih =>
    have hi : indexOf mid s = .ok (idx s) := by
      have hs := h s (by simp)
      obtain ⟨hlt, he⟩ := List.getElem?_eq_some_iff.mp hs
      unfold indexOf
      have : (mid.findIdx? fun x => decide (x = .str s)) = some (idx s) := by
        rw [List.findIdx?_eq_some_iff_getElem]
        refine ⟨hlt, by simp [he], ?_⟩
        intro j hj
        simp only [decide_eq_true_eq]
        intro hc
        have := (List.Nodup.getElem_inj_iff hn (hi := by omega) (hj := hlt)).mp (hc.trans he.symm)
        omega
      rw [this]
    rw [indices, hi]
    dsimp only
    rw [ih fun s hs => h s (List.mem_cons_of_mem _ hs)]
    rfl

lemma outNames_nodup (npoint : Nat) (bands : List String) : (outNames npoint bands).Nodup ↔
    bands.Nodup ∧ (∀ b ∈ bands, b ∉ ["id", "source_index", "wall", "lnp_best", "ra", "dec"]) ∧ (3 < npoint → "lnp" ∉ bands) := by
  have key : (outNames npoint bands).Perm
      (bands ++ (["id", "source_index", "wall", "lnp_best", "ra", "dec"] ++ if 3 < npoint then ["lnp"] else [])) := by
    rw [List.perm_iff_count]
    intro a
    simp only [outNames, List.count_append, List.count_cons, List.count_nil]
    omega
  rw [key.nodup_iff, List.nodup_append]
  have hd : (["id", "source_index", "wall", "lnp_best", "ra", "dec"] ++ if 3 < npoint then ["lnp"] else []).Nodup := by
    split <;> decide
  constructor
  · rintro ⟨h1, -, h2⟩
    refine ⟨h1, fun b hb hm => h2 b hb b (List.mem_append_left _ hm) rfl, fun h3 hl => ?_⟩
    exact h2 "lnp" hl "lnp" (List.mem_append_right _ (by simp [h3])) rfl
  · rintro ⟨h1, h2, h3⟩
    refine ⟨h1, hd, ?_⟩
    rintro a ha b hb rfl
    rcases List.mem_append.1 hb with hb | hb
    · exact h2 a ha hb
    · by_cases hp : 3 < npoint
      · rw [if_pos hp, List.mem_singleton] at hb
        exact h3 hp (hb ▸ ha)
      · rw [if_neg hp] at hb
        cases hb

/-- C91, bands. A band that is given twice, or that has the name of another column of the combined catalog, is an error whatever the groups. -/
theorem C91_bands (floatStr : String → Option String) (cat : SampleCat K) (bands : List String) (groups : List (String × List String))
    (hra : "ra" ∈ cat.names) (hrow : 0 < cat.nrow)
    (h : ¬ bands.Nodup ∨ (∃ b ∈ bands, b ∈ ["id", "source_index", "wall", "lnp_best", "ra", "dec"]) ∨ 3 < cat.npoint ∧ "lnp" ∈ bands) :
    combineChains floatStr cat bands groups = .error .valueError := by
  unfold combineChains
  rw [if_neg (by simp [hra]), if_neg (by omega), if_pos]
  rw [outNames_nodup]
  rintro ⟨h1, h2, h3⟩
  rcases h with h | ⟨b, hb, hm⟩ | ⟨hp, hl⟩
  · exact h h1
  · exact h2 b hb hm
  · exact h3 hp hl

/-- C91: if the catalog has distinct string ids, the bands are distinct and no names of other columns, and every group consists of ids of the catalog, the combined
catalog has one row per group, in order, named by the group's number; each sample of a band is the sum, and each
sample of the position the mean, of those of the group's sources; the header lists the members. -/
theorem C91_combine_partial (floatStr : String → Option String) (cat : SampleCat K) (mid : List Ident)
    (hm : cat.ids = some mid) (hn : mid.Nodup) (hrow : 0 < cat.nrow) (bands : List String)
    (hb : ∀ b ∈ bands, b ∈ cat.names) (hra : "ra" ∈ cat.names) (hdec : "dec" ∈ cat.names)
    (hbn : bands.Nodup) (hbo : ∀ b ∈ bands, b ∉ ["id", "source_index", "wall", "lnp_best", "ra", "dec"])
    (hbl : 3 < cat.npoint → "lnp" ∉ bands) (idx : String → Nat) (groups : List (String × List String))
    (hg : ∀ g ∈ groups, (floatStr g.1).isSome ∧ ∀ s ∈ g.2, mid[idx s]? = some (.str s)) :
    ∃ rows hdr, combineChains floatStr cat bands groups = .ok (rows, hdr) ∧ rows.length = groups.length ∧
      hdr = groups.map (fun g => ("G" ++ g.1, ",".intercalate g.2)) ∧
      ∀ (i : Nat) (g : String) (sub : List String), groups[i]? = some (g, sub) →
        ∃ row, rows[i]? = some row ∧ floatStr g = some row.id ∧
          (∀ b ∈ bands, ∀ k, row.flux b k = (sub.map fun s => cat.val (idx s) b k).sum) ∧
          (∀ k, row.ra k = if sub = [] then none else some ((sub.map fun s => cat.val (idx s) "ra" k).sum / sub.length)) ∧
          (∀ k, row.dec k = if sub = [] then none else
            some ((sub.map fun s => cat.val (idx s) "dec" k).sum / sub.length)) := by
  have h1 : cat.names.contains "ra" = true := by simpa using hra
  have h2 : cat.names.contains "dec" = true := by simpa using hdec
  have h3 : (bands.any fun b => ¬ cat.names.contains b) = false := by
    rw [List.any_eq_false]
    intro b hbm
    simpa using hb b hbm
  unfold combineChains
  rw [if_neg (by simp [hra]), if_neg (by omega), if_neg (not_not.2 ((outNames_nodup _ _).2 ⟨hbn, hbo, hbl⟩)), hm]
  dsimp only
  induction groups with
  | nil => exact ⟨[], [], rfl, rfl, rfl, by intro i g sub h; simp at h⟩
  | cons p rest ih =>
    obtain ⟨g, sub⟩ := p
    obtain ⟨rows, hdr, e1, e2, e3, e4⟩ := ih fun g hgm => hg g (List.mem_cons_of_mem _ hgm)
    obtain ⟨hf, hsub⟩ := hg (g, sub) (by simp)
    obtain ⟨name, hname⟩ := Option.isSome_iff_exists.mp hf
    dsimp only at hname hsub
    have hone := indices_ok mid hn idx sub hsub
    have hcomb : combineOne floatStr cat mid bands g sub = .ok
        (⟨name, fun b k => if bands.contains b then ((sub.map idx).map fun i => cat.val i b k).sum else 0,
          fun k => if sub.map idx = [] then none else
            some (((sub.map idx).map fun i => cat.val i "ra" k).sum / ((sub.map idx).length : K)),
          fun k => if sub.map idx = [] then none else
            some (((sub.map idx).map fun i => cat.val i "dec" k).sum / ((sub.map idx).length : K))⟩,
          "G" ++ g, ",".intercalate sub) := by
      unfold combineOne
      rw [hname]
      dsimp only
      rw [hone]
      dsimp only
      rw [if_neg (by rw [h3]; simp), if_neg (by simp [hdec])]
    rw [combineChains.loop, hcomb]
    dsimp only
    rw [e1]
    dsimp only
    refine ⟨_, _, rfl, by simp [e2], by simp [e3], ?_⟩
    intro i g' sub' hi
    cases i with
    | zero =>
      simp only [List.getElem?_cons_zero, Option.some.injEq, Prod.mk.injEq] at hi
      obtain ⟨rfl, rfl⟩ := hi
      refine ⟨_, rfl, hname, ?_, ?_, ?_⟩
      · intro b hbm k
        dsimp only
        rw [if_pos (by simpa using hbm), List.map_map]; rfl
      · intro k
        simp only [List.map_eq_nil_iff, List.map_map, List.length_map]; rfl
      · intro k
        simp only [List.map_eq_nil_iff, List.map_map, List.length_map]; rfl
    | succ i => exact e4 i g' sub' hi

/-- C91 is refuted for the catalogs the code writes: with integer ids any group with a member raises, and without
an id column the call always raises. -/
theorem C91_refuted (floatStr : String → Option String) (cat : SampleCat K) (bands : List String)
    (groups : List (String × List String)) :
    (cat.ids = none → ∃ e, combineChains floatStr cat bands groups = .error e) ∧
    (∀ mid, cat.ids = some mid → (∀ x ∈ mid, ∃ n, x = Ident.int n) → (∃ g ∈ groups, g.2 ≠ []) →
      ∃ e, combineChains floatStr cat bands groups = .error e) := by
  constructor
  · intro h
    unfold combineChains
    split
    · exact ⟨_, rfl⟩
    split
    · exact ⟨_, rfl⟩
    split
    · exact ⟨_, rfl⟩
    rw [h]
    exact ⟨_, rfl⟩
  · intro mid hm hint hex
    unfold combineChains
    split
    · exact ⟨_, rfl⟩
    split
    · exact ⟨_, rfl⟩
    split
    · exact ⟨_, rfl⟩
    rw [hm]
    dsimp only
    have hidx : ∀ s, indexOf mid s = .error .valueError := by
      intro s
      unfold indexOf
      have : (mid.findIdx? fun x => decide (x = .str s)) = none := by
        rw [List.findIdx?_eq_none_iff]
        intro x hx
        obtain ⟨n, rfl⟩ := hint x hx
        simp
      rw [this]
    induction groups with
    | nil => obtain ⟨g, hg, -⟩ := hex; simp at hg
    | cons p rest ih =>
      obtain ⟨g, sub⟩ := p
      rw [combineChains.loop]
      cases hc : combineOne floatStr cat mid bands g sub with
      | error e => exact ⟨e, rfl⟩
      | ok r =>
        obtain ⟨row, key, value⟩ := r
        dsimp only
        have hsub : sub = [] := by
          by_contra hne
          obtain ⟨s, l, rfl⟩ := List.exists_cons_of_ne_nil hne
          unfold combineOne at hc
          cases hf : floatStr g with
          | none => rw [hf] at hc; cases hc
          | some name =>
            rw [hf] at hc
            dsimp only at hc
            rw [indices, hidx] at hc
            cases hc
        obtain ⟨g', hg', hne⟩ := hex
        rcases List.mem_cons.mp hg' with rfl | hg'
        · exact absurd hsub hne
        · obtain ⟨e, he⟩ := ih ⟨g', hg', hne⟩
          rw [he]
          exact ⟨e, rfl⟩

/-- A catalog of two sources combined into one. -/
example : (match combineChains (K := ℚ) (fun g => some (g ++ ".0")) ⟨2, some [.str "4", .str "7"], ["F200W", "ra", "dec"], 1,
      fun i c _ => if c = "ra" then 10 + i else if c = "dec" then 20 else 3 + i⟩ ["F200W"] [("1", ["7", "4"])] with
    | .ok ([r], hdr) => some (r.id, r.flux "F200W" 0, r.ra 0, hdr)
    | _ => none) = some ("1.0", 7, some (21 / 2), [("G1", "7,4")]) := by decide +kernel

/-- The same catalog with a band given twice. -/
example : (match combineChains (K := ℚ) (fun g => some (g ++ ".0")) ⟨2, some [.str "4", .str "7"], ["F200W", "ra", "dec"], 1,
      fun i _ _ => 3 + i⟩ ["F200W", "F200W"] [("1", ["7", "4"])] with
    | .ok _ => none
    | .error e => some e) = some .valueError := by decide +kernel

end Forcepho.Quantile
