import Verif.Contour.Model
import Mathlib.Data.List.Sort
import Mathlib.Algebra.BigOperators.Group.List.Basic
import Mathlib.Algebra.Order.BigOperators.Group.List
import Mathlib.Tactic.Linarith
import Mathlib.Tactic.FieldSimp
import Mathlib.Tactic.Ring
import Mathlib.Tactic.Positivity
import Mathlib.Tactic.NormNum
import Mathlib.Tactic.LinearCombination

/-! # C150: contours enclose the stated share of the samples -/

set_option autoImplicit false

namespace Forcepho.Contour

variable {K : Type} [Field K] [LinearOrder K] [IsStrictOrderedRing K]

/-! ## Density levels -/

lemma last_some (v t : K) (ht : 0 < t) (s : List K) : (∀ x ∈ s, 0 ≤ x) → ∀ acc p,
    ((s.zip (cumsum acc s)).filter fun p => decide (p.2 / t ≤ v)).getLast? = some p →
    ∃ pre post, s = pre ++ p.1 :: post ∧ acc + pre.sum + p.1 ≤ v * t ∧
      ∀ y ∈ post.head?, v * t < acc + pre.sum + p.1 + y := by
  induction s with
  | nil => intro _ acc p h; simp [cumsum] at h
  | cons x xs ih =>
    intro hpos acc p h
    simp only [cumsum, List.zip_cons_cons, List.filter_cons] at h
    have hx : 0 ≤ x := hpos x (by simp)
    have hxs : ∀ y ∈ xs, 0 ≤ y := fun y hy => hpos y (by simp [hy])
    have key : ∀ q : K × K,
        ((xs.zip (cumsum (acc + x) xs)).filter fun p => decide (p.2 / t ≤ v)).getLast? = some q →
        q = p → ∃ pre post, x :: xs = pre ++ p.1 :: post ∧ acc + pre.sum + p.1 ≤ v * t ∧
          ∀ y ∈ post.head?, v * t < acc + pre.sum + p.1 + y := by
      intro q hq e
      subst e
      obtain ⟨pre, post, h1, h2, h3⟩ := ih hxs (acc + x) q hq
      refine ⟨x :: pre, post, by rw [h1]; rfl, ?_, ?_⟩
      · rw [List.sum_cons]; linarith
      · intro y hy; have := h3 y hy; rw [List.sum_cons]; linarith
    by_cases hc : (acc + x) / t ≤ v
    · simp only [hc, decide_true, if_true] at h
      rw [List.getLast?_cons] at h
      cases hl : ((xs.zip (cumsum (acc + x) xs)).filter fun p => decide (p.2 / t ≤ v)).getLast? with
      | some q =>
        rw [hl] at h
        simp only [Option.getD_some, Option.some.injEq] at h
        exact key q hl h
      | none =>
        rw [hl] at h
        simp only [Option.getD_none, Option.some.injEq] at h
        subst h
        refine ⟨[], xs, rfl, ?_, ?_⟩
        · rw [div_le_iff₀ ht] at hc
          simpa using hc
        · intro y hy
          cases xs with
          | nil => simp at hy
          | cons z zs =>
            simp only [List.head?_cons, Option.mem_some_iff] at hy
            subst hy
            rw [List.getLast?_eq_none_iff, List.filter_eq_nil_iff] at hl
            have := hl (z, acc + x + z) (by simp [cumsum])
            simp only [decide_eq_true_eq, not_le] at this
            rw [lt_div_iff₀ ht] at this
            simpa using this
    · simp only [hc, decide_false, Bool.false_eq_true, if_false] at h
      exact key p h rfl

lemma last_none (v t : K) (ht : 0 < t) (x : K) (xs : List K)
    (h : (((x :: xs).zip (cumsum 0 (x :: xs))).filter fun p => decide (p.2 / t ≤ v)).getLast? = none) :
    v * t < x := by
  rw [List.getLast?_eq_none_iff, List.filter_eq_nil_iff] at h
  have := h (x, 0 + x) (by simp [cumsum])
  simp only [decide_eq_true_eq, not_le] at this
  rw [lt_div_iff₀ ht] at this
  simpa using this

lemma descending_perm (h : List K) : (descending h).Perm h := List.mergeSort_perm _ _

lemma descending_sorted (h : List K) : (descending h).Pairwise fun a b => b ≤ a := by
  have := List.pairwise_mergeSort (le := fun a b : K => decide (b ≤ a))
    (fun a b c h1 h2 => by simp only [decide_eq_true_eq] at *; exact le_trans h2 h1)
    (fun a b => by simp only [Bool.or_eq_true, decide_eq_true_eq]; exact le_total b a) h
  exact this.imp fun h => by simpa using h

omit [IsStrictOrderedRing K] in
lemma ascending_perm (h : List K) : (ascending h).Perm h := List.mergeSort_perm _ _

omit [IsStrictOrderedRing K] in
lemma ascending_sorted (h : List K) : (ascending h).Pairwise fun a b => a ≤ b := by
  have := List.pairwise_mergeSort (le := fun a b : K => decide (a ≤ b))
    (fun a b c h1 h2 => by simp only [decide_eq_true_eq] at *; exact le_trans h1 h2)
    (fun a b => by simp only [Bool.or_eq_true, decide_eq_true_eq]; exact le_total a b) h
  exact this.imp fun h => by simpa using h

lemma sum_filter_le (q : K → Bool) (l : List K) (h : ∀ x ∈ l, 0 ≤ x) :
    0 ≤ (l.filter q).sum ∧ (l.filter q).sum ≤ l.sum := by
  induction l with
  | nil => simp
  | cons a l ih =>
    obtain ⟨h1, h2⟩ := ih fun x hx => h x (by simp [hx])
    have ha := h a (by simp)
    rw [List.filter_cons]
    split
    · simp only [List.sum_cons]; constructor <;> linarith
    · simp only [List.sum_cons]; constructor <;> linarith

/-- C150 (share). For every histogram with a positive total and every fraction, the level is one of
the densities; the cells denser than it hold at most the fraction; and any lower density that occurs
would enclose more than the fraction. -/
theorem C150_share (h : List K) (hpos : ∀ x ∈ h, 0 ≤ x) (ht : 0 < h.sum) (v : K) (hv : 0 ≤ v) :
    ∃ l, level h v = some l ∧ l ∈ h ∧
      (h.filter fun x => decide (l < x)).sum ≤ v * h.sum ∧
      ∀ t ∈ h, t < l → v * h.sum < (h.filter fun x => decide (t ≤ x)).sum := by
  have hp := descending_perm h
  have hs := descending_sorted h
  have hmem : ∀ x, x ∈ descending h ↔ x ∈ h := fun x => hp.mem_iff
  have hsum : ∀ q : K → Bool, (h.filter q).sum = ((descending h).filter q).sum :=
    fun q => ((hp.filter q).sum_eq).symm
  have hpos' : ∀ x ∈ descending h, 0 ≤ x := fun x hx => hpos x ((hmem x).mp hx)
  unfold level
  simp only [if_neg (ne_of_gt ht)]
  cases hl : ((((descending h).zip (cumsum 0 (descending h))).filter
      fun p => decide (p.2 / h.sum ≤ v)).getLast?) with
  | some p =>
    obtain ⟨pre, post, h1, h2, h3⟩ := last_some v h.sum ht _ hpos' 0 p hl
    rw [zero_add] at h2
    refine ⟨p.1, rfl, (hmem _).mp (by rw [h1]; simp), ?_, ?_⟩
    · rw [hsum, h1, List.filter_append, List.filter_cons]
      rw [h1] at hs hpos'
      have hpost : (post.filter fun x => decide (p.1 < x)) = [] := by
        rw [List.filter_eq_nil_iff]
        intro x hx
        have := (List.pairwise_append.mp hs).2.1
        have := (List.pairwise_cons.mp this).1 x hx
        simpa using this
      simp only [lt_irrefl, decide_false, Bool.false_eq_true, if_false, hpost, List.append_nil]
      have h4 := (sum_filter_le (fun x => decide (p.1 < x)) pre
        (fun x hx => hpos' x (by simp [hx]))).2
      have h5 := hpos' p.1 (by simp)
      linarith
    · intro t htm hlt
      rw [hsum]
      have htm' := (hmem t).mpr htm
      rw [h1] at hs hpos' htm' ⊢
      obtain ⟨q1, q2, q3⟩ := List.pairwise_append.mp hs
      have hin : t ∈ post := by
        rcases List.mem_append.mp htm' with h6 | h6
        · exact absurd (q3 t h6 p.1 (by simp)) (not_le.mpr hlt)
        · rcases List.mem_cons.mp h6 with h6 | h6
          · exact absurd h6 (ne_of_lt hlt)
          · exact h6
      obtain ⟨y, ys, hy⟩ : ∃ y ys, post = y :: ys := List.exists_cons_of_ne_nil (List.ne_nil_of_mem hin)
      have h7 := h3 y (by rw [hy]; simp)
      subst hy
      have hty : t ≤ y := by
        rcases List.mem_cons.mp hin with h8 | h8
        · exact le_of_eq h8
        · exact (List.pairwise_cons.mp (List.pairwise_cons.mp q2).2).1 t h8
      have hpre : (pre.filter fun x => decide (t ≤ x)) = pre := by
        rw [List.filter_eq_self]
        intro x hx
        have := q3 x hx p.1 (by simp)
        simp only [decide_eq_true_eq]; linarith
      rw [List.filter_append, hpre, List.filter_cons, List.filter_cons]
      simp only [hlt.le, hty, decide_true, if_true, List.sum_append, List.sum_cons]
      have := (sum_filter_le (fun x => decide (t ≤ x)) ys
        (fun x hx => hpos' x (by simp [hx]))).1
      linarith
  | none =>
    cases hd : descending h with
    | nil =>
      rw [hd] at hp
      have : h = [] := List.nil_perm.mp hp
      subst this
      simp at ht
    | cons x xs =>
      rw [hd] at hl
      have h1 := last_none v h.sum ht x xs hl
      rw [hd] at hs hpos'
      refine ⟨x, rfl, (hmem _).mp (by rw [hd]; simp), ?_, ?_⟩
      · rw [hsum, hd]
        have : ((x :: xs).filter fun y => decide (x < y)) = [] := by
          rw [List.filter_eq_nil_iff]
          intro y hy
          rcases List.mem_cons.mp hy with e | hy
          · simp [e]
          · have := (List.pairwise_cons.mp hs).1 y hy
            simpa using this
        rw [this]
        simp only [List.sum_nil]
        positivity
      · intro t _ hlt
        rw [hsum, hd, List.filter_cons]
        simp only [hlt.le, decide_true, if_true, List.sum_cons]
        have := (sum_filter_le (fun y => decide (t ≤ y)) xs
          (fun y hy => hpos' y (by simp [hy]))).1
        linarith

omit [IsStrictOrderedRing K] in
lemma cumsum_length (s : List K) : ∀ acc, (cumsum acc s).length = s.length := by
  induction s with
  | nil => intro acc; rfl
  | cons x xs ih => intro acc; simp [cumsum, ih]

lemma level_mono (h : List K) (ht : 0 < h.sum) (v w : K) (hvw : v ≤ w) (l k : K)
    (hl : level h v = some l) (hk : level h w = some k) : k ≤ l := by
  have hs := descending_sorted h
  have hz : ((descending h).zip (cumsum 0 (descending h))).Pairwise fun a b => b.1 ≤ a.1 := by
    have : (((descending h).zip (cumsum 0 (descending h))).map Prod.fst).Pairwise
        fun a b : K => b ≤ a := by
      rw [List.map_fst_zip (le_of_eq (cumsum_length _ _).symm)]
      exact hs
    exact List.pairwise_map.mp this
  unfold level at hl hk
  simp only [if_neg (ne_of_gt ht)] at hl hk
  have hhead : ∀ x ∈ descending h, ∀ y, (descending h).head? = some y → x ≤ y := by
    intro x hx y hy
    cases hd : descending h with
    | nil => rw [hd] at hx; cases hx
    | cons a t =>
      rw [hd] at hx hy hs
      simp only [List.head?_cons, Option.some.injEq] at hy
      subst hy
      rcases List.mem_cons.mp hx with e | hx
      · rw [e]
      · exact (List.pairwise_cons.mp hs).1 x hx
  generalize hd : (descending h).zip (cumsum 0 (descending h)) = z at hl hk hz
  have hmem : ∀ p ∈ z, p.1 ∈ descending h := by
    intro p hp; rw [← hd] at hp; exact (List.of_mem_zip hp).1
  cases hv : (z.filter fun p => decide (p.2 / h.sum ≤ v)).getLast? with
  | none =>
    rw [hv] at hl
    refine hhead k ?_ l hl
    cases hw : (z.filter fun p => decide (p.2 / h.sum ≤ w)).getLast? with
    | none => rw [hw] at hk; exact List.mem_of_mem_head? hk
    | some p =>
      rw [hw] at hk
      simp only [Option.some.injEq] at hk
      subst hk
      have := List.mem_of_getLast? hw
      exact hmem p (List.mem_filter.mp this).1
  | some p =>
    rw [hv] at hl
    simp only [Option.some.injEq] at hl
    subst hl
    have hp := List.mem_filter.mp (List.mem_of_getLast? hv)
    have hp' : p ∈ z.filter fun p => decide (p.2 / h.sum ≤ w) := by
      rw [List.mem_filter]
      refine ⟨hp.1, ?_⟩
      have := hp.2
      simp only [decide_eq_true_eq] at this ⊢
      exact le_trans this hvw
    cases hw : (z.filter fun p => decide (p.2 / h.sum ≤ w)).getLast? with
    | none =>
      rw [List.getLast?_eq_none_iff] at hw
      rw [hw] at hp'; cases hp'
    | some q =>
      rw [hw] at hk
      simp only [Option.some.injEq] at hk
      subst hk
      have hzf := hz.filter (fun p => decide (p.2 / h.sum ≤ w))
      generalize (z.filter fun p => decide (p.2 / h.sum ≤ w)) = f at hw hp' hzf
      obtain ⟨ys, rfl⟩ := List.getLast?_eq_some_iff.mp hw
      rcases List.mem_append.mp hp' with h1 | h1
      · exact (List.pairwise_append.mp hzf).2.2 p h1 q (by simp)
      · simp only [List.mem_singleton] at h1
        rw [h1]

/-- C150 (order and sign). Larger fractions have lower levels; a fraction below one has a positive
level. -/
theorem C150_monotone (h : List K) (hpos : ∀ x ∈ h, 0 ≤ x) (ht : 0 < h.sum) (v w : K) (hv : 0 ≤ v)
    (hvw : v ≤ w) :
    ∃ l k, level h v = some l ∧ level h w = some k ∧ k ≤ l ∧ (v < 1 → 0 < l) := by
  obtain ⟨l, h1, h2, h3, h4⟩ := C150_share h hpos ht v hv
  obtain ⟨k, g1, g2, g3, g4⟩ := C150_share h hpos ht w (le_trans hv hvw)
  refine ⟨l, k, h1, g1, ?_, ?_⟩
  · exact level_mono h ht v w hvw l k h1 g1
  · intro hv1
    by_contra hneg
    push Not at hneg
    have h0 : l = 0 := le_antisymm hneg (hpos l h2)
    subst h0
    have : (h.filter fun x => decide (0 < x)).sum = h.sum := by
      clear h1 h2 h3 h4 g1 g2 g3 g4 ht
      induction h with
      | nil => rfl
      | cons a h ih =>
        have ha := hpos a (by simp)
        rw [List.filter_cons]
        rcases ha.lt_or_eq with hp | hp
        · simp only [hp, decide_true, if_true, List.sum_cons]
          rw [ih fun x hx => hpos x (by simp [hx])]
        · subst hp
          simp only [lt_irrefl, decide_false, Bool.false_eq_true, if_false, List.sum_cons, zero_add]
          exact ih fun x hx => hpos x (by simp [hx])
    rw [this] at h3
    nlinarith

lemma descending_eq (h s : List K) (hp : s.Perm h) (hs : s.Pairwise fun a b => b ≤ a) :
    descending h = s :=
  List.Perm.eq_of_pairwise (fun _ _ _ _ h1 h2 => le_antisymm h2 h1) (descending_sorted h) hs
    ((descending_perm h).trans hp.symm)

/-- Four cells, three fractions: the levels are 5, 3 and 1. -/
example : level [1, 5, 3, (1 : ℚ)] (1 / 2) = some 5 ∧ level [1, 5, 3, (1 : ℚ)] (4 / 5) = some 3 ∧
    level [1, 5, 3, (1 : ℚ)] (9 / 10) = some 1 := by
  have h : descending [1, 5, 3, (1 : ℚ)] = [5, 3, 1, 1] := by
    apply descending_eq
    · exact (List.Perm.cons 5 (List.Perm.swap 1 3 [1])).trans (List.Perm.swap 1 5 [3, 1])
    · norm_num
  unfold level
  rw [h]
  norm_num [cumsum]

/-! ## Separating equal levels -/

/-- What the loop leaves: as many levels, none raised, all positive. -/
def Below (ws vs : List K) : Prop := List.Forall₂ (fun w v => 0 < w ∧ w ≤ v) ws vs

lemma bump_below (vs : List K) : (∀ x ∈ vs, 0 < x) → ∀ ws, bump vs = some ws → Below ws vs := by
  induction vs with
  | nil => intro _ ws h; simp [bump] at h
  | cons a t ih =>
    intro hp ws h
    have ha := hp a (by simp)
    have refl : ∀ l : List K, (∀ x ∈ l, 0 < x) → Below l l := by
      intro l hl
      induction l with
      | nil => exact .nil
      | cons x l ihl => exact .cons ⟨hl x (by simp), le_refl _⟩ (ihl fun y hy => hl y (by simp [hy]))
    cases t with
    | nil => simp [bump] at h
    | cons b r =>
      simp only [bump] at h
      split at h
      · simp only [Option.some.injEq] at h
        subst h
        refine .cons ⟨?_, ?_⟩ (refl _ fun x hx => hp x (by simp only [List.mem_cons] at hx ⊢; tauto))
        · have : (0 : K) < 1 - 1 / 10000 := by norm_num
          positivity
        · have : (1 : K) - 1 / 10000 ≤ 1 := by norm_num
          calc a * (1 - 1 / 10000) ≤ a * 1 := by
                exact mul_le_mul_of_nonneg_left this ha.le
            _ = a := mul_one a
      · cases hb : bump (b :: r) with
        | none => rw [hb] at h; cases h
        | some ws' =>
          rw [hb] at h
          simp only [Option.map_some, Option.some.injEq] at h
          subst h
          exact .cons ⟨ha, le_refl _⟩ (ih (fun x hx => hp x (by simp only [List.mem_cons] at hx ⊢; tauto)) ws' hb)

lemma below_trans (a b c : List K) (h1 : Below a b) (h2 : Below b c) : Below a c := by
  unfold Below at *
  induction h1 generalizing c with
  | nil => cases h2; exact .nil
  | cons h _ ih =>
    cases h2 with
    | cons h' t' => exact .cons ⟨h.1, le_trans h.2 h'.2⟩ (ih _ t')

lemma below_pos (a b : List K) (h : Below a b) : ∀ x ∈ a, 0 < x := by
  unfold Below at h
  induction h with
  | nil => simp
  | cons h _ ih =>
    intro x hx
    rcases List.mem_cons.mp hx with e | hx
    · rw [e]; exact h.1
    · exact ih x hx

lemma bump_none (vs : List K) (h : bump vs = none) : vs.IsChain (· ≠ ·) := by
  induction vs with
  | nil => exact .nil
  | cons a t ih =>
    cases t with
    | nil => exact .singleton a
    | cons b r =>
      simp only [bump] at h
      split at h
      · cases h
      · rename_i hne
        exact .cons_cons hne (ih (by simpa using h))

lemma separate_below (n : Nat) : ∀ vs ws : List K, (∀ x ∈ vs, 0 < x) → separate n vs = some ws →
    Below ws vs ∧ ws.IsChain (· ≠ ·) := by
  induction n with
  | zero => intro vs ws _ h; simp [separate] at h
  | succ n ih =>
    intro vs ws hp h
    simp only [separate] at h
    cases hb : bump vs with
    | none =>
      rw [hb] at h
      simp only [Option.some.injEq] at h
      subst h
      refine ⟨?_, bump_none _ hb⟩
      clear hb ih
      unfold Below
      induction vs with
      | nil => exact .nil
      | cons x l ihl => exact .cons ⟨hp x (by simp), le_refl _⟩ (ihl fun y hy => hp y (by simp [hy]))
    | some us =>
      rw [hb] at h
      have h1 := bump_below vs hp us hb
      obtain ⟨h2, h3⟩ := ih us ws (below_pos _ _ h1) h
      exact ⟨below_trans _ _ _ h2 h1, h3⟩

/-- A level in front of a list for which the loop ends: the loop ends. -/
lemma separate_cons (n : Nat) : ∀ (t w : List K) (a : K), 0 < a → separate n t = some w →
    ∃ m u, separate m (a :: t) = some u := by
  have shrink : ∀ a : K, 0 < a → a * (1 - 1 / 10000) ≠ a := by
    intro a ha h
    have : a * (1 / 10000) = 0 := by linear_combination -h
    have h2 : (0 : K) < a * (1 / 10000) := by positivity
    linarith
  have keep : ∀ a : K, 0 < a → 0 < a * (1 - 1 / 10000) := by
    intro a ha
    have : (0 : K) < 1 - 1 / 10000 := by norm_num
    positivity
  induction n with
  | zero => intro t w a _ h; simp [separate] at h
  | succ n ih =>
    intro t w a ha h
    cases t with
    | nil => exact ⟨1, [a], by simp [separate, bump]⟩
    | cons b r =>
      -- after at most one round for `a` it differs from `b`
      have go : ∀ a : K, 0 < a → a ≠ b → ∃ m u, separate m (a :: b :: r) = some u := by
        intro a ha hab
        simp only [separate] at h
        cases hb : bump (b :: r) with
        | none => exact ⟨1, a :: b :: r, by simp [separate, bump, hab, hb]⟩
        | some us =>
          rw [hb] at h
          obtain ⟨m, u, hm⟩ := ih us w a ha h
          exact ⟨m + 1, u, by simp [separate, bump, hab, hb, hm]⟩
      by_cases hab : a = b
      · subst hab
        obtain ⟨m, u, hm⟩ := go (a * (1 - 1 / 10000)) (keep a ha) (shrink a ha)
        refine ⟨m + 1, u, ?_⟩
        rw [separate]
        have : bump (a :: a :: r) = some (a * (1 - 1 / 10000) :: a :: r) := by
          rw [bump, if_pos rfl]
        rw [this]
        exact hm
      · exact go a ha hab

lemma separate_ends (vs : List K) (hp : ∀ x ∈ vs, 0 < x) : ∃ n ws, separate n vs = some ws := by
  induction vs with
  | nil => exact ⟨1, [], by simp [separate, bump]⟩
  | cons a t ih =>
    obtain ⟨n, w, h⟩ := ih fun x hx => hp x (by simp [hx])
    exact separate_cons n t w a (hp a (by simp)) h

lemma levelsOf_pos (h : List K) (hpos : ∀ x ∈ h, 0 ≤ x) (ht : 0 < h.sum) (vs : List K)
    (hv : ∀ v ∈ vs, 0 ≤ v ∧ v < 1) :
    ∃ ls, levelsOf h vs = some ls ∧ List.Forall₂ (fun v l => level h v = some l) vs ls ∧
      ∀ l ∈ ls, 0 < l := by
  induction vs with
  | nil => exact ⟨[], rfl, .nil, by simp⟩
  | cons v vs ih =>
    obtain ⟨ls, h1, h2, h3⟩ := ih fun w hw => hv w (by simp [hw])
    obtain ⟨h4, h5⟩ := hv v (by simp)
    obtain ⟨l, _, h6, _, _, h7⟩ := C150_monotone h hpos ht v v h4 (le_refl v)
    refine ⟨l :: ls, by simp [levelsOf, h6, h1], .cons h6 h2, ?_⟩
    intro x hx
    rcases List.mem_cons.mp hx with e | hx
    · rw [e]; exact h7 h5
    · exact h3 x hx

/-- C150 (ends). For every histogram with a positive total and all fractions below one, the loop that
separates equal levels ends; there are as many levels as fractions, in order, and all are positive. -/
theorem C150_ends (h : List K) (hpos : ∀ x ∈ h, 0 ≤ x) (ht : 0 < h.sum) (vs : List K)
    (hv : ∀ v ∈ vs, 0 ≤ v ∧ v < 1) :
    ∃ n ws, contours n h vs = some ws ∧ ws.length = vs.length ∧ ws.Pairwise (· ≤ ·) ∧
      ∀ w ∈ ws, 0 < w := by
  obtain ⟨ls, h1, h2, h3⟩ := levelsOf_pos h hpos ht vs hv
  have hp : ∀ x ∈ ascending ls, 0 < x := fun x hx => h3 x ((ascending_perm ls).mem_iff.mp hx)
  obtain ⟨n, ws, h4⟩ := separate_ends (ascending ls) hp
  obtain ⟨h5, _⟩ := separate_below n _ _ hp h4
  refine ⟨n, ascending ws, by simp [contours, h1, h4], ?_, ascending_sorted ws, ?_⟩
  · rw [(ascending_perm ws).length_eq, h5.length_eq, (ascending_perm ls).length_eq, h2.length_eq]
  · intro w hw
    exact below_pos _ _ h5 w ((ascending_perm ws).mem_iff.mp hw)

/-- C150 (distinct levels). Where the densities of the fractions, given in increasing order, are
different, the contours are drawn exactly at them: strictly increasing, one for each fraction. -/
theorem C150_levels_partial (h : List K) (vs ls : List K)
    (hl : List.Forall₂ (fun v l => level h v = some l) vs ls) (hd : ls.Nodup) (n : Nat) :
    ∃ ws, contours (n + 1) h vs = some ws ∧ ws.Perm ls ∧ ws.Pairwise (· < ·) := by
  have h1 : levelsOf h vs = some ls := by
    clear hd
    induction hl with
    | nil => rfl
    | cons e _ ih => simp [levelsOf, e, ih]
  have hlt : (ascending ls).Pairwise (· < ·) := by
    have hn : (ascending ls).Nodup := (ascending_perm ls).nodup_iff.mpr hd
    exact ((ascending_sorted ls).and hn).imp fun h => lt_of_le_of_ne h.1 h.2
  have hb : ∀ t : List K, t.Pairwise (· < ·) → bump t = none := by
    intro t ht
    induction t with
    | nil => rfl
    | cons a t ih =>
      cases t with
      | nil => rfl
      | cons b r =>
        have := (List.pairwise_cons.mp ht).1 b (by simp)
        simp [bump, ne_of_lt this, ih (List.pairwise_cons.mp ht).2]
  have h2 : separate (n + 1) (ascending ls) = some (ascending ls) := by
    simp [separate, hb _ hlt]
  refine ⟨ascending (ascending ls), by simp [contours, h1, h2],
    (ascending_perm _).trans (ascending_perm _), ?_⟩
  have hs := ascending_sorted (ascending ls)
  have hn : (ascending (ascending ls)).Nodup :=
    ((ascending_perm _).trans (ascending_perm ls)).nodup_iff.mpr hd
  exact (hs.and hn).imp fun h => lt_of_le_of_ne h.1 h.2

/-- C150, not in general: lowering a level may give one that is there already, further down; two of
the four levels are then equal, and matplotlib refuses them. -/
theorem C150_increasing_refuted :
    ∃ vs ws : List ℚ, vs.Pairwise (· ≤ ·) ∧ (∀ v ∈ vs, 0 < v) ∧ vs.length = 4 ∧
      separate 3 vs = some ws ∧ ¬ (ascending ws).Pairwise (· < ·) := by
  refine ⟨[9999 / 10000, 19999 / 20000, 1, 1], [9999 / 10000, 19999 / 20000, 9999 / 10000, 1],
    by norm_num, by norm_num, rfl, by norm_num [separate, bump], ?_⟩
  intro h
  have h1 : (ascending [9999 / 10000, 19999 / 20000, 9999 / 10000, (1 : ℚ)]).Nodup :=
    h.imp fun h => ne_of_lt h
  have h2 := (ascending_perm _).nodup_iff.mp h1
  simp at h2

/-- C150 (does not end). When no sample lies in the span, the histogram is zero, all levels are zero,
and with two or more fractions the loop never ends. -/
theorem C150_hang_refuted (h : List K) (hne : h ≠ []) (hz : ∀ x ∈ h, x = 0) (v w : K) (vs : List K) :
    ∀ n, contours n h (v :: w :: vs) = none := by
  have hsum : h.sum = 0 := List.sum_eq_zero hz
  have hlev : ∀ u, level h u = some 0 := by
    intro u
    unfold level
    simp only [hsum, if_true]
    cases hd : descending h with
    | nil =>
      have := descending_perm h
      rw [hd] at this
      exact absurd (List.nil_perm.mp this) hne
    | cons x xs =>
      have : x ∈ descending h := by rw [hd]; simp
      simp [hz x ((descending_perm h).mem_iff.mp this)]
  have hlv : ∀ us : List K, levelsOf h us = some (List.replicate us.length 0) := by
    intro us
    induction us with
    | nil => rfl
    | cons u us ih => simp [levelsOf, hlev, ih, List.replicate_succ]
  have hasc : ascending (List.replicate (vs.length + 2) (0 : K)) = List.replicate (vs.length + 2) 0 := by
    rw [List.eq_replicate_iff]
    refine ⟨(ascending_perm _).length_eq.trans (by simp), ?_⟩
    intro b hb
    exact List.eq_of_mem_replicate ((ascending_perm _).mem_iff.mp hb)
  have hsep : ∀ n, separate n (List.replicate (vs.length + 2) (0 : K)) = none := by
    intro n
    induction n with
    | zero => rfl
    | succ n ih =>
      have : bump (List.replicate (vs.length + 2) (0 : K)) = some (List.replicate (vs.length + 2) 0) := by
        simp [List.replicate_succ, bump]
      simp [separate, this, ih]
  intro n
  simp [contours, hlv, hasc, hsep]

/-- Two empty cells and the default number of fractions. -/
example : contours 1000 [0, (0 : ℚ)] [1 / 9, 2 / 5, 2 / 3, 6 / 7] = none :=
  C150_hang_refuted _ (by simp) (by simp) _ _ _ _

/-! ## Bins, padding, colours -/

lemma pyRound_spec (x : ℚ) :
    |(pyRound x : ℚ) - x| ≤ 1 / 2 ∧ (|(pyRound x : ℚ) - x| = 1 / 2 → pyRound x % 2 = 0) := by
  have h1 := Int.floor_le x
  have h2 := Int.lt_floor_add_one x
  unfold pyRound
  simp only
  split_ifs with c1 c2 c3
  · rw [abs_of_nonpos (by linarith)]
    exact ⟨by linarith, fun h => by linarith⟩
  · push_cast
    rw [abs_of_nonneg (by linarith)]
    exact ⟨by linarith, fun h => by linarith⟩
  · rw [abs_of_nonpos (by linarith)]
    exact ⟨by linarith, fun _ => c3⟩
  · push_cast
    rw [abs_of_nonneg (by linarith)]
    exact ⟨by linarith, fun _ => by omega⟩

/-- C150 (bins). A smoothing of at most one gives the integer nearest to twice its inverse, halves
going to the even one, hence at least two bins; one above gives its integer part; between one and two
that is a single bin, and extending the centres raises. -/
theorem C150_bins (s : ℚ) :
    (0 < s → s ≤ 1 → ∃ b, bins s = some b ∧ 2 ≤ b ∧ |(b : ℚ) - 2 / s| ≤ 1 / 2 ∧
      (|(b : ℚ) - 2 / s| = 1 / 2 → b % 2 = 0)) ∧ (1 < s → bins s = some ⌊s⌋) ∧
    (1 < s → s < 2 → bins s = some 1) ∧ ∀ x : Nat → ℚ, extended 1 x = none := by
  refine ⟨?_, ?_, ?_, fun _ => rfl⟩
  · intro h0 h1
    have h2 : 2 ≤ 2 / s := by rw [le_div_iff₀ h0]; linarith
    have h3 := pyRound_spec (2 / s)
    have e : bins s = some (pyRound (2 / s)) := by
      unfold bins; rw [if_neg (not_lt.mpr h1), if_neg h0.ne']
    refine ⟨_, e, ?_, h3⟩
    have h4 := (abs_le.mp h3.1).1
    by_contra hlt
    have : pyRound (2 / s) ≤ 1 := by omega
    have : (pyRound (2 / s) : ℚ) ≤ 1 := by exact_mod_cast this
    linarith
  · intro h; unfold bins; rw [if_pos h]
  · intro h h2
    unfold bins
    rw [if_pos h, Option.some_inj, Int.floor_eq_iff]
    constructor
    · push_cast; exact h.le
    · push_cast; linarith

/-- The default smoothing gives a hundred bins; halves go to the even integer. -/
example : bins (1 / 50) = some 100 ∧ bins 30 = some 30 ∧ bins (4 / 5) = some 2 ∧
    bins (4 / 7) = some 4 := by
  decide +kernel

lemma bins_neg (s : ℚ) (h : s < 0) : ∃ b, bins s = some b ∧ b < 1 := by
  have e : bins s = some (pyRound (2 / s)) := by
    unfold bins; rw [if_neg (by linarith), if_neg h.ne]
  refine ⟨_, e, ?_⟩
  have h2 : 2 / s < 0 := div_neg_of_pos_of_neg (by norm_num) h
  have h4 := (abs_le.mp (pyRound_spec (2 / s)).1).2
  by_contra hlt
  have : (1 : Int) ≤ pyRound (2 / s) := by omega
  have : (1 : ℚ) ≤ (pyRound (2 / s) : ℚ) := by exact_mod_cast this
  linarith

lemma bins_pos (s : ℚ) (h : 0 < s) : ∃ b, bins s = some b ∧ 1 ≤ b := by
  rcases le_or_gt s 1 with h1 | h1
  · obtain ⟨b, e, h2, -⟩ := (C150_bins s).1 h h1
    exact ⟨b, e, by omega⟩
  · exact ⟨_, (C150_bins s).2.1 h1, Int.le_floor.mpr (by push_cast; exact h1.le)⟩

lemma bins_zero : bins 0 = none := by decide +kernel

/-- C150 (smoothings). A histogram is made exactly for two positive smoothings, with at least one bin
in each direction, the numbers being those of the two directions in order.  A smoothing of zero in
either direction raises on the conversion; a negative one with none zero is reported as samples
without dynamic range. -/
theorem C150_smoothings (sx sy : ℚ) :
    (0 < sx → 0 < sy → ∃ a b, binPair sx sy = .ok (a, b) ∧ 1 ≤ a ∧ 1 ≤ b ∧
      bins sx = some a ∧ bins sy = some b) ∧
    (sx = 0 ∨ sy = 0 → binPair sx sy = .error .overflow) ∧
    (sx ≠ 0 → sy ≠ 0 → sx < 0 ∨ sy < 0 → binPair sx sy = .error .noDynamicRange) := by
  refine ⟨?_, ?_, ?_⟩
  · intro hx hy
    obtain ⟨a, ea, ha⟩ := bins_pos sx hx
    obtain ⟨b, eb, hb⟩ := bins_pos sy hy
    refine ⟨a, b, ?_, ha, hb, ea, eb⟩
    unfold binPair
    rw [ea, eb]
    simp only
    rw [if_neg (by omega)]
  · rintro (rfl | rfl)
    · unfold binPair; rw [bins_zero]
    · unfold binPair; rw [bins_zero]; cases bins sx <;> rfl
  · intro hx hy h
    have key : ∀ s : ℚ, s ≠ 0 → ∃ b, bins s = some b ∧ (s < 0 → b < 1) := by
      intro s hs
      rcases lt_or_gt_of_ne hs with h | h
      · obtain ⟨b, e, hb⟩ := bins_neg s h
        exact ⟨b, e, fun _ => hb⟩
      · obtain ⟨b, e, -⟩ := bins_pos s h
        exact ⟨b, e, fun h' => absurd h' (not_lt.mpr h.le)⟩
    obtain ⟨a, ea, ha⟩ := key sx hx
    obtain ⟨b, eb, hb⟩ := key sy hy
    unfold binPair
    rw [ea, eb]
    simp only
    rw [if_pos (h.imp ha hb)]

/-- The default with thirty bins upwards; a smoothing of zero; a negative one. -/
example : binPair (1 / 50) 30 = .ok (100, 30) ∧ binPair (1 / 50) 0 = .error .overflow ∧
    binPair (-1) 30 = .error .noDynamicRange := by
  decide +kernel

/-- C150 (padding). The extended histogram has in each cell of its second ring the nearest cell of
the histogram, the histogram itself inside, and the minimum on its outermost ring. -/
theorem C150_padding (n m : Nat) (hn : 0 < n) (hm : 0 < m) (lo : K) (h : Nat → Nat → K) (i j : Nat)
    (hi : i < n + 4) (hj : j < m + 4) :
    padded n m lo h i j =
      if i = 0 ∨ i = n + 3 ∨ j = 0 ∨ j = m + 3 then lo
      else h (min (i - 2) (n - 1)) (min (j - 2) (m - 1)) := by
  unfold padded
  split_ifs <;> first
    | rfl
    | omega
    | (congr 1 <;> omega)

/-- C150 (positions). With bins of equal width the extended centres are the centres of the bins of the
same width continued by two on either side, one for each row of the extended histogram. -/
theorem C150_positions (n : Nat) (hn : 2 ≤ n) (x0 w : K) :
    ∃ l, extended n (centres fun k => x0 + (k : K) * w) = some l ∧ l.length = n + 4 ∧
      ∀ j (hj : j < l.length), l[j] = x0 + ((j : K) - 2 + 1 / 2) * w := by
  have hc : ∀ k : Nat, centres (fun k => x0 + (k : K) * w) k = x0 + ((k : K) + 1 / 2) * w := by
    intro k; unfold centres; push_cast; ring
  obtain ⟨k, rfl⟩ : ∃ k, n = k + 2 := ⟨n - 2, by omega⟩
  have hl : extended (k + 2) (centres fun k => x0 + (k : K) * w) =
      some ((List.range (k + 6)).map fun (j : Nat) => x0 + ((j : K) - 2 + 1 / 2) * w) := by
    unfold extended
    rw [if_neg (by omega)]
    have e1 : k + 2 - 1 = k + 1 := by omega
    have e2 : k + 2 - 2 = k := by omega
    have hr : List.range (k + 6) = [0, 1] ++ (List.range (k + 2)).map (2 + ·) ++ [k + 4, k + 5] := by
      have h1 : List.range (2 + (k + 2)) = List.range 2 ++ (List.range (k + 2)).map (2 + ·) :=
        List.range_add
      rw [show k + 6 = 2 + (k + 2) + 1 + 1 by omega, List.range_succ, List.range_succ, h1]
      simp [List.range_succ]
      omega
    rw [hr]
    simp only [hc, e1, e2, List.map_append, List.map_map, Option.some.injEq]
    congr 1
    · congr 1
      · simp
        constructor <;> ring
      · apply List.map_congr_left
        intro j _
        simp only [Function.comp_apply]
        push_cast
        rw [hc]; ring
    · simp
      constructor <;> ring
  refine ⟨_, hl, by simp, ?_⟩
  intro j hj
  simp

/-- C150 (fill). There is one colour for each interval between the boundaries of the filled contours;
the boundaries increase when the levels do, lie above zero and not above the maximum; the opacities
increase from zero and stay below one. -/
theorem C150_fill (hmax : K) (vs : List K) (h0 : 0 < hmax) (hs : vs.Pairwise (· < ·))
    (hv : ∀ v ∈ vs, 0 < v ∧ v ≤ hmax) :
    (filled hmax vs).Pairwise (· < ·) ∧ (filled hmax vs).length = vs.length + 2 ∧
    (filled hmax vs).head? = some 0 ∧ (filled hmax vs).getLast? = some (hmax * 10001 / 10000) ∧
    (∀ v ∈ vs, v ∈ filled hmax vs) ∧
    (opacities vs.length).length + 1 = (filled hmax vs).length ∧
    ∀ i (hi : i < (opacities vs.length).length),
      (opacities vs.length)[i] = (i : ℚ) / ((vs.length : ℚ) + 1) ∧ (opacities vs.length)[i] < 1 := by
  have hb : hmax < hmax * (1 + 1 / 10000) := by
    have : (0 : K) < hmax * (1 / 10000) := by positivity
    linarith [mul_add hmax 1 (1 / 10000)]
  have hl : hmax * (1 + 1 / 10000) = hmax * 10001 / 10000 := by
    have h : (10000 : K) ≠ 0 := by norm_num
    field_simp
    norm_num
  refine ⟨?_, by simp [filled], by simp [filled], ?_, ?_, by simp [filled, opacities], ?_⟩
  rotate_left
  · unfold filled
    rw [List.getLast?_append, hl]
    simp
  · intro v hv
    simp [filled, hv]
  rotate_left
  · unfold filled
    rw [List.append_assoc, List.singleton_append, List.pairwise_cons]
    constructor
    · intro x hx
      rcases List.mem_append.mp hx with h | h
      · exact (hv x h).1
      · rw [List.mem_singleton] at h; subst h; linarith
    · rw [List.pairwise_append]
      refine ⟨hs, by simp, ?_⟩
      intro a ha b hb'
      rw [List.mem_singleton] at hb'; subst hb'
      linarith [(hv a ha).2]
  · intro i hi
    have e : (opacities vs.length)[i] = (i : ℚ) / ((vs.length : ℚ) + 1) := by simp [opacities]
    refine ⟨e, ?_⟩
    rw [e, div_lt_one (by positivity)]
    simp only [opacities, List.length_map, List.length_range] at hi
    exact_mod_cast hi

/-- Levels to which `C150_fill` applies. -/
example : ([1, 3, (5 : ℚ)].Pairwise (· < ·)) ∧ ∀ v ∈ [1, 3, (5 : ℚ)], 0 < v ∧ v ≤ 5 := by
  decide +kernel

end Forcepho.Contour
