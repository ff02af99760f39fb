import Verif.Galsim.Model
import Mathlib.Data.Nat.Digits.Lemmas
import Mathlib.Data.List.Lex
import Mathlib.Data.List.Nodup
import Mathlib.Tactic.Linarith
import Mathlib.Tactic.NormNum
import Mathlib.Tactic.Ring

/-! # C160: grids, tags and summaries of the validation -/

set_option autoImplicit false

namespace Forcepho.Galsim

/-! ## Grids -/

theorem insertName_perm {α : Type} (e : String × α) (l : List (String × α)) : (insertName e l).Perm (e :: l) := by
  induction l with
  | nil => exact List.Perm.refl _
  | cons f t ih =>
    unfold insertName
    by_cases h : e.1 ≤ f.1
    · rw [if_pos h]
    · rw [if_neg h]
      exact (List.Perm.cons f ih).trans (List.Perm.swap e f t)

theorem sortNames_perm {α : Type} (l : List (String × α)) : (sortNames l).Perm l := by
  induction l with
  | nil => exact List.Perm.refl _
  | cons e t ih => exact (insertName_perm e _).trans (List.Perm.cons e ih)

theorem insertName_sorted {α : Type} (e : String × α) (l : List (String × α))
    (h : l.Pairwise fun a b => a.1 ≤ b.1) : (insertName e l).Pairwise fun a b => a.1 ≤ b.1 := by
  induction l with
  | nil => exact List.pairwise_singleton _ _
  | cons f t ih =>
    unfold insertName
    rw [List.pairwise_cons] at h
    by_cases hef : e.1 ≤ f.1
    · rw [if_pos hef, List.pairwise_cons]
      refine ⟨?_, List.pairwise_cons.2 h⟩
      intro a ha
      rcases List.mem_cons.1 ha with ha | ha
      · rw [ha]; exact hef
      · exact String.le_trans hef (h.1 a ha)
    · rw [if_neg hef, List.pairwise_cons]
      refine ⟨?_, ih h.2⟩
      intro a ha
      rcases List.mem_cons.1 ((insertName_perm e t).mem_iff.1 ha) with ha | ha
      · rw [ha]; exact (String.le_total _ _).resolve_left hef
      · exact h.1 a ha

theorem sortNames_sorted {α : Type} (l : List (String × α)) : (sortNames l).Pairwise fun a b => a.1 ≤ b.1 := by
  induction l with
  | nil => exact List.Pairwise.nil
  | cons e t ih => exact insertName_sorted e _ ih

theorem mem_product {α : Type} (ls : List (List α)) : ∀ r : List α, r ∈ product ls ↔ List.Forall₂ (· ∈ ·) r ls := by
  induction ls with
  | nil => intro r; simp [product]
  | cons xs rest ih =>
    intro r
    unfold product
    rw [List.mem_flatMap]
    constructor
    · rintro ⟨x, hx, h⟩
      obtain ⟨s, hs, rfl⟩ := List.mem_map.1 h
      exact List.Forall₂.cons hx ((ih s).1 hs)
    · intro h
      cases h with
      | cons hx hs => exact ⟨_, hx, List.mem_map.2 ⟨_, (ih _).2 hs, rfl⟩⟩

theorem length_product {α : Type} (ls : List (List α)) : (product ls).length = (ls.map List.length).prod := by
  induction ls with
  | nil => rfl
  | cons xs rest ih =>
    unfold product
    rw [List.length_flatMap, List.map_cons, List.prod_cons, ← ih]
    simp

theorem sorted_product (ls : List (List ℚ)) (h : ∀ l ∈ ls, l.Pairwise (· < ·)) :
    (product ls).Pairwise fun a b => List.Lex (· < ·) a b := by
  induction ls with
  | nil => exact List.pairwise_singleton _ _
  | cons xs rest ih =>
    unfold product
    have ih' := ih fun l hl => h l (List.mem_cons_of_mem _ hl)
    have hx := h xs List.mem_cons_self
    rw [List.pairwise_flatMap]
    refine ⟨?_, ?_⟩
    · intro x _
      rw [List.pairwise_map]
      exact ih'.imp fun hab => List.Lex.cons hab
    · refine hx.imp ?_
      intro a b hab u hu v hv
      obtain ⟨r, _, rfl⟩ := List.mem_map.1 hu
      obtain ⟨s, _, rfl⟩ := List.mem_map.1 hv
      exact List.Lex.rel hab

/-- C160 (grid). The columns are those of the file in order of their names, the rows are all choices of one value for each,
as many as the product of the numbers of values, in lexicographic order when values increase, and the rows before `start`
are dropped. -/
theorem C160_grid (grid : List (String × List ℚ)) (start : Nat) :
    ∃ cols : List (String × List ℚ), cols.Perm grid ∧ (cols.map (·.1)).Pairwise (· ≤ ·) ∧
      ∃ rows : List (List ℚ), gridParams grid start = (cols.map (·.1), rows.drop start) ∧
        (∀ r, r ∈ rows ↔ List.Forall₂ (· ∈ ·) r (cols.map (·.2))) ∧
        rows.length = (grid.map fun e => e.2.length).prod ∧
        ((∀ e ∈ grid, e.2.Pairwise (· < ·)) → rows.Pairwise fun a b => List.Lex (· < ·) a b) := by
  refine ⟨sortNames grid, sortNames_perm grid, ?_, product ((sortNames grid).map (·.2)), rfl, mem_product _, ?_, ?_⟩
  · rw [List.pairwise_map]; exact sortNames_sorted grid
  · rw [length_product, List.map_map]
    exact ((sortNames_perm grid).map _).prod_eq
  · intro h
    apply sorted_product
    intro l hl
    obtain ⟨e, he, rfl⟩ := List.mem_map.1 hl
    exact h e ((sortNames_perm grid).mem_iff.1 he)

theorem contains_iff (sub l : List Char) : contains sub l = true ↔ sub <:+: l := by
  induction l with
  | nil => simp [contains]
  | cons c t ih =>
    simp only [contains, Bool.or_eq_true, List.isPrefixOf_iff_prefix, ih]
    exact List.infix_cons_iff.symm

/-- C160 (grid file). A name whose last four characters contain `yml` is read as yaml, otherwise one whose last five contain
`fits` as FITS; any other name stops at an unbound variable. -/
theorem C160_reader (name : List Char) :
    (reader name = some .yaml ↔ "yml".toList <:+: name.drop (name.length - 4)) ∧
    (reader name = some .fits ↔ ¬ "yml".toList <:+: name.drop (name.length - 4) ∧
      "fits".toList <:+: name.drop (name.length - 5)) := by
  unfold reader
  rw [← contains_iff, ← contains_iff]
  cases contains "yml".toList (name.drop (name.length - 4)) <;>
    cases contains "fits".toList (name.drop (name.length - 5)) <;> simp

/-- C160, refuted (grid file). A grid named `*.yaml` is never read. -/
theorem C160_yaml_refuted (stem : List Char) : reader (stem ++ ".yaml".toList) = none := by
  unfold reader
  have h4 : (stem ++ ".yaml".toList).drop ((stem ++ ".yaml".toList).length - 4) = "yaml".toList := by
    rw [List.length_append, List.drop_append, List.drop_eq_nil_of_le (by simp)]
    have : stem.length + ".yaml".toList.length - 4 - stem.length = 1 := by
      have : ".yaml".toList.length = 5 := by decide
      omega
    rw [this]; rfl
  have h5 : (stem ++ ".yaml".toList).drop ((stem ++ ".yaml".toList).length - 5) = ".yaml".toList := by
    rw [List.length_append, List.drop_append, List.drop_eq_nil_of_le (by simp)]
    have : stem.length + ".yaml".toList.length - 5 - stem.length = 0 := by
      have : ".yaml".toList.length = 5 := by decide
      omega
    rw [this]; rfl
  rw [h4, h5, if_neg (by decide), if_neg (by decide)]

/-! ## Tags -/

/-- `k` is `x·10^d` rounded, ties to even. -/
def Rounds (d : Nat) (x : ℚ) (k : Nat) : Prop :=
  |x * 10 ^ d - k| ≤ 1 / 2 ∧ (|x * 10 ^ d - k| = 1 / 2 → k % 2 = 0)

theorem rint_rounds (d : Nat) (x : ℚ) (hx : 0 ≤ x) : Rounds d x (rint (x * 10 ^ d)) := by
  have hy : 0 ≤ x * 10 ^ d := by positivity
  generalize hyy : x * 10 ^ d = y at hy
  unfold Rounds
  rw [hyy]
  have hf : (0 : ℤ) ≤ ⌊y⌋ := Int.floor_nonneg.2 hy
  have hc : ((⌊y⌋.toNat : Nat) : ℚ) = (⌊y⌋ : ℚ) := by
    rw [← Int.cast_natCast, Int.toNat_of_nonneg hf]
  have h1 := Int.floor_le y
  have h2 := Int.lt_floor_add_one y
  unfold rint
  by_cases ha : y - ⌊y⌋ < 1 / 2
  · rw [if_pos ha, hc]
    have e : |y - ⌊y⌋| = y - ⌊y⌋ := abs_of_nonneg (by linarith)
    rw [e]
    exact ⟨le_of_lt ha, fun h => absurd h (ne_of_lt ha)⟩
  · rw [if_neg ha]
    have hn : |y - ((⌊y⌋.toNat + 1 : Nat) : ℚ)| = ⌊y⌋ + 1 - y := by
      rw [Nat.cast_add, Nat.cast_one, hc, abs_of_nonpos (by linarith)]; ring
    by_cases hb : 1 / 2 < y - ⌊y⌋
    · rw [if_pos hb, hn]
      exact ⟨by linarith, fun h => absurd h (by intro h'; linarith)⟩
    · rw [if_neg hb]
      have heq : y - ⌊y⌋ = 1 / 2 := le_antisymm (not_lt.1 hb) (not_lt.1 ha)
      by_cases hm : ⌊y⌋.toNat % 2 = 0
      · rw [if_pos hm, hc, heq]
        exact ⟨by norm_num, fun _ => hm⟩
      · rw [if_neg hm, hn]
        exact ⟨by linarith, fun _ => by omega⟩

theorem rounds_unique (d : Nat) (x : ℚ) (a b : Nat) (ha : Rounds d x a) (hb : Rounds d x b) : a = b := by
  obtain ⟨a1, a2⟩ := ha
  obtain ⟨b1, b2⟩ := hb
  have key : ∀ a b : Nat, |x * 10 ^ d - a| ≤ 1 / 2 → (|x * 10 ^ d - a| = 1 / 2 → a % 2 = 0) →
      |x * 10 ^ d - b| ≤ 1 / 2 → (|x * 10 ^ d - b| = 1 / 2 → b % 2 = 0) → ¬ a < b := by
    intro a b a1 a2 b1 b2 hlt
    have hab : (a : ℚ) + 1 ≤ b := by exact_mod_cast hlt
    have a3 := (abs_le.1 a1).2
    have b3 := (abs_le.1 b1).1
    have e1 : x * 10 ^ d - a = 1 / 2 := by linarith
    have e2 : x * 10 ^ d - b = -(1 / 2) := by linarith
    have m1 := a2 (by rw [e1]; norm_num)
    have m2 := b2 (by rw [e2]; norm_num)
    have : (b : ℚ) = a + 1 := by linarith
    have : b = a + 1 := by exact_mod_cast this
    omega
  have h1 := key a b a1 a2 b1 b2
  have h2 := key b a b1 b2 a1 a2
  omega

theorem padDigits_length (w k : Nat) : w ≤ (padDigits w k).length := by
  unfold padDigits
  rw [List.length_append, List.length_replicate]
  omega

theorem padDigits_lt (w k : Nat) : ∀ n ∈ padDigits w k, n < 10 := by
  intro n hn
  unfold padDigits at hn
  rcases List.mem_append.1 hn with h | h
  · exact Nat.digits_lt_base (by norm_num) h
  · rw [List.eq_of_mem_replicate h]; norm_num

theorem padDigits_inj (w a b : Nat) (h : padDigits w a = padDigits w b) : a = b := by
  have e : ∀ k, Nat.ofDigits 10 (padDigits w k) = k := by
    intro k
    unfold padDigits
    rw [Nat.ofDigits_append_replicate_zero, Nat.ofDigits_digits]
  rw [← e a, ← e b, h]

theorem digitChar_inj : ∀ a < 10, ∀ b < 10, digitChar a = digitChar b → a = b := by decide

theorem digitChar_ne : ∀ a < 10, digitChar a ≠ '_' ∧ digitChar a ≠ '.' := by decide

theorem map_digit_inj : ∀ (a b : List Nat), (∀ n ∈ a, n < 10) → (∀ n ∈ b, n < 10) →
    a.map digitChar = b.map digitChar → a = b := by
  intro a
  induction a with
  | nil => intro b _ _ h; cases b with
    | nil => rfl
    | cons => simp at h
  | cons x a ih =>
    intro b ha hb h
    cases b with
    | nil => simp at h
    | cons y b =>
      rw [List.map_cons, List.map_cons] at h
      injection h with h1 h2
      rw [digitChar_inj x (ha x (by simp)) y (hb y (by simp)) h1,
        ih b (fun n hn => ha n (by simp [hn])) (fun n hn => hb n (by simp [hn])) h2]

theorem fixed_inj (w d : Nat) (hw : d ≤ w) (x y : ℚ) :
    fixed w d x = fixed w d y ↔ rint (x * 10 ^ d) = rint (y * 10 ^ d) := by
  constructor
  · intro h
    unfold fixed at h
    have h := List.reverse_injective h
    apply padDigits_inj w
    apply map_digit_inj _ _ (padDigits_lt w _) (padDigits_lt w _)
    by_cases hd : d = 0
    · rw [if_pos hd, if_pos hd] at h; exact h
    · rw [if_neg hd, if_neg hd] at h
      have l1 : ((padDigits w (rint (x * 10 ^ d))).map digitChar |>.take d).length = d := by
        rw [List.length_take, List.length_map]
        have := padDigits_length w (rint (x * 10 ^ d))
        omega
      have l2 : ((padDigits w (rint (y * 10 ^ d))).map digitChar |>.take d).length = d := by
        rw [List.length_take, List.length_map]
        have := padDigits_length w (rint (y * 10 ^ d))
        omega
      rw [List.append_assoc, List.append_assoc] at h
      obtain ⟨h1, h2⟩ := List.append_inj h (by rw [l1, l2])
      have h3 := List.append_cancel_left h2
      rw [← List.take_append_drop d (List.map digitChar (padDigits w (rint (x * 10 ^ d)))), h1, h3,
        List.take_append_drop]
  · intro h
    unfold fixed
    rw [h]

theorem fixed_chars (w d : Nat) (x : ℚ) : '_' ∉ fixed w d x := by
  unfold fixed
  rw [List.mem_reverse]
  have hm : '_' ∉ (padDigits w (rint (x * 10 ^ d))).map digitChar := by
    intro h
    obtain ⟨n, hn, he⟩ := List.mem_map.1 h
    exact (digitChar_ne n (padDigits_lt w _ n hn)).1 he
  by_cases hd : d = 0
  · rw [if_pos hd]; exact hm
  · rw [if_neg hd]
    simp only [List.mem_append, List.mem_singleton, not_or]
    exact ⟨⟨fun h => hm (List.mem_of_mem_take h), by decide⟩, fun h => hm (List.mem_of_mem_drop h)⟩

theorem split_at (a b r s : List Char) (ha : '_' ∉ a) (hb : '_' ∉ b) (h : a ++ '_' :: r = b ++ '_' :: s) :
    a = b ∧ r = s := by
  induction a generalizing b with
  | nil =>
    cases b with
    | nil => injection h with _ h; exact ⟨rfl, h⟩
    | cons y b => injection h with h1 _; rw [← h1] at hb; simp at hb
  | cons x a ih =>
    cases b with
    | nil => injection h with h1 _; rw [h1] at ha; simp at ha
    | cons y b =>
      injection h with h1 h2
      obtain ⟨e1, e2⟩ := ih b (fun h => ha (by simp [h])) (fun h => hb (by simp [h])) h2
      exact ⟨by rw [h1, e1], e2⟩

theorem rint_iff (d : Nat) (x y : ℚ) (hx : 0 ≤ x) (hy : 0 ≤ y) :
    rint (x * 10 ^ d) = rint (y * 10 ^ d) ↔ ∃ k, Rounds d x k ∧ Rounds d y k := by
  constructor
  · intro h
    exact ⟨_, rint_rounds d x hx, h ▸ rint_rounds d y hy⟩
  · rintro ⟨k, h1, h2⟩
    rw [rounds_unique d x _ k (rint_rounds d x hx) h1, rounds_unique d y _ k (rint_rounds d y hy) h2]

/-- C160 (tags). In one run, two points have the same tag exactly when the index and the half-light radius, axis ratio and
S/N round to the same numbers with one, three, two and no decimals; in the runs over Sersic profiles also the width of the
PSF, with one decimal. -/
theorem C160_tag (band : List Char) (noise : ℚ) (p r : Point)
    (hp : 0 ≤ p.sersic ∧ 0 ≤ p.rhalf ∧ 0 ≤ p.q ∧ 0 ≤ p.fwhm ∧ 0 ≤ p.snr)
    (hr : 0 ≤ r.sersic ∧ 0 ≤ r.rhalf ∧ 0 ≤ r.q ∧ 0 ≤ r.fwhm ∧ 0 ≤ r.snr) :
    (tagPsf band noise p = tagPsf band noise r ↔
      (∃ k, Rounds 1 p.sersic k ∧ Rounds 1 r.sersic k) ∧ (∃ k, Rounds 3 p.rhalf k ∧ Rounds 3 r.rhalf k) ∧
      (∃ k, Rounds 2 p.q k ∧ Rounds 2 r.q k) ∧ (∃ k, Rounds 0 p.snr k ∧ Rounds 0 r.snr k)) ∧
    (tagSersic noise p = tagSersic noise r ↔
      (∃ k, Rounds 1 p.sersic k ∧ Rounds 1 r.sersic k) ∧ (∃ k, Rounds 3 p.rhalf k ∧ Rounds 3 r.rhalf k) ∧
      (∃ k, Rounds 2 p.q k ∧ Rounds 2 r.q k) ∧ (∃ k, Rounds 1 p.fwhm k ∧ Rounds 1 r.fwhm k) ∧
      (∃ k, Rounds 0 p.snr k ∧ Rounds 0 r.snr k)) := by
  have hsep : ∀ (w d : Nat) (x y : ℚ) (word : List Char) (u v : List Char),
      fixed w d x ++ (('_' :: word) ++ u) = fixed w d y ++ (('_' :: word) ++ v) → fixed w d x = fixed w d y ∧ u = v := by
    intro w d x y word u v h
    obtain ⟨h1, h2⟩ := split_at _ _ (word ++ u) (word ++ v) (fixed_chars w d x) (fixed_chars w d y) h
    exact ⟨h1, List.append_cancel_left h2⟩
  rw [← rint_iff 1 _ _ hp.1 hr.1, ← rint_iff 3 _ _ hp.2.1 hr.2.1, ← rint_iff 2 _ _ hp.2.2.1 hr.2.2.1,
    ← rint_iff 1 _ _ hp.2.2.2.1 hr.2.2.2.1, ← rint_iff 0 _ _ hp.2.2.2.2 hr.2.2.2.2,
    ← fixed_inj 2 1 (by norm_num), ← fixed_inj 4 3 (by norm_num), ← fixed_inj 3 2 (by norm_num),
    ← fixed_inj 2 1 (by norm_num) p.fwhm, ← fixed_inj 3 0 (by norm_num)]
  constructor
  · constructor
    · intro h
      unfold tagPsf at h
      obtain ⟨h1, h⟩ := hsep 2 1 _ _ "rhalf".toList _ _ (List.append_cancel_left h)
      obtain ⟨h2, h⟩ := hsep 4 3 _ _ "q".toList _ _ h
      obtain ⟨h3, h⟩ := hsep 3 2 _ _ "band".toList _ _ h
      obtain ⟨h4, _⟩ := hsep 3 0 _ _ "noise".toList _ _ (List.append_cancel_left (List.append_cancel_left h))
      exact ⟨h1, h2, h3, h4⟩
    · rintro ⟨h1, h2, h3, h4⟩
      unfold tagPsf
      rw [h1, h2, h3, h4]
  · constructor
    · intro h
      unfold tagSersic at h
      obtain ⟨h1, h⟩ := hsep 2 1 _ _ "rhalf".toList _ _ (List.append_cancel_left h)
      obtain ⟨h2, h⟩ := hsep 4 3 _ _ "q".toList _ _ h
      obtain ⟨h3, h⟩ := hsep 3 2 _ _ "fwhm".toList _ _ h
      obtain ⟨h4, h⟩ := hsep 2 1 _ _ "snr".toList _ _ h
      obtain ⟨h5, _⟩ := hsep 3 0 _ _ "noise".toList _ _ h
      exact ⟨h1, h2, h3, h4, h5⟩
    · rintro ⟨h1, h2, h3, h4, h5⟩
      unfold tagSersic
      rw [h1, h2, h3, h4, h5]

theorem padDigits_eq (w : Nat) : ∀ k, k < 10 ^ w → padDigits w k = (List.range w).map fun i => k / 10 ^ i % 10 := by
  induction w with
  | zero =>
    intro k hk
    have : k = 0 := by simpa using hk
    rw [this]; simp [padDigits]
  | succ w ih =>
    intro k hk
    have hk' : k / 10 < 10 ^ w := by
      rw [Nat.div_lt_iff_lt_mul (by norm_num)]
      calc k < 10 ^ (w + 1) := hk
        _ = 10 ^ w * 10 := by rw [pow_succ]
    have h := ih (k / 10) hk'
    have hs : padDigits (w + 1) k = k % 10 :: padDigits w (k / 10) := by
      unfold padDigits
      by_cases h0 : k = 0
      · rw [h0]; simp [List.replicate_succ]
      · rw [Nat.digits_def' (by norm_num) (Nat.pos_of_ne_zero h0)]
        simp
    rw [hs, h, List.range_succ_eq_map, List.map_cons, List.map_map]
    congr 1
    · simp
    · apply List.map_congr_left
      intro i _
      simp only [Function.comp_apply]
      rw [Nat.div_div_eq_div_mul, pow_succ, mul_comm 10]

/-- C160 (numbers in tags). The text of a number is the digits of the number rounded: below ten with one, three and two
decimals, and three digits filled with zeros. -/
theorem C160_text (x : ℚ) (hx : 0 ≤ x) (k : Nat) :
    (Rounds 1 x k → k < 100 → fixed 2 1 x = [digitChar (k / 10 % 10), '.', digitChar (k % 10)]) ∧
    (Rounds 2 x k → k < 1000 → fixed 3 2 x =
      [digitChar (k / 100 % 10), '.', digitChar (k / 10 % 10), digitChar (k % 10)]) ∧
    (Rounds 3 x k → k < 10000 → fixed 4 3 x =
      [digitChar (k / 1000 % 10), '.', digitChar (k / 100 % 10), digitChar (k / 10 % 10), digitChar (k % 10)]) ∧
    (Rounds 0 x k → k < 1000 → fixed 3 0 x =
      [digitChar (k / 100 % 10), digitChar (k / 10 % 10), digitChar (k % 10)]) ∧
    (Rounds 0 x k → k < 10 → fixed 1 0 x = [digitChar (k % 10)]) ∧
    (List.range 10).map digitChar = "0123456789".toList := by
  refine ⟨?_, ?_, ?_, ?_, ?_, by decide⟩ <;>
  · intro h hk
    have e := rounds_unique _ x _ k (rint_rounds _ x hx) h
    unfold fixed
    rw [e, padDigits_eq _ k (by norm_num; exact hk)]
    simp [List.range_succ]

/-! ## Loops -/

theorem image_cons (d : Dir) (t u : List Char) (p : Point) (s : List (List Char × Samples)) :
    Dir.image ⟨(t, p) :: d.images, s⟩ u = if t = u then some p else d.image u := by
  unfold Dir.image
  by_cases h : t = u
  · rw [List.find?_cons_of_pos (by simpa using h), if_pos h]; rfl
  · rw [List.find?_cons_of_neg (by simpa using h), if_neg h]

theorem chain_cons (d : Dir) (t u : List Char) (c : Samples) (s : List (List Char × Point)) :
    Dir.chain ⟨s, (t, c) :: d.samples⟩ u = if t = u then some c else d.chain u := by
  unfold Dir.chain
  by_cases h : t = u
  · rw [List.find?_cons_of_pos (by simpa using h), if_pos h]; rfl
  · rw [List.find?_cons_of_neg (by simpa using h), if_neg h]

/-- C160 (loops). In a new directory, after either loop the chain of any tag is the chain of the first point with that tag,
and so is the image. -/
theorem C160_first (tag : Point → List Char) (draws : Nat) (ps : List Point) (t : List Char) :
    (ps.foldl (stepPsf tag draws) ⟨[], []⟩).image t = ps.find? (fun p => tag p == t) ∧
    (ps.foldl (stepPsf tag draws) ⟨[], []⟩).chain t = (ps.find? (fun p => tag p == t)).map (fun p => ⟨p, draws⟩) ∧
    (ps.foldl (stepSersic tag draws) ⟨[], []⟩).image t = ps.find? (fun p => tag p == t) ∧
    (ps.foldl (stepSersic tag draws) ⟨[], []⟩).chain t = (ps.find? (fun p => tag p == t)).map (fun p => ⟨p, draws⟩) := by
  have hP : ∀ (d : Dir), (∀ u, (d.chain u) = (d.image u).map fun p => ⟨p, draws⟩) → ∀ t,
      (ps.foldl (stepPsf tag draws) d).image t = (d.image t).or (ps.find? (fun p => tag p == t)) ∧
      (ps.foldl (stepPsf tag draws) d).chain t =
        ((d.image t).or (ps.find? (fun p => tag p == t))).map (fun p => ⟨p, draws⟩) := by
    induction ps with
    | nil => intro d hd t; simp [hd]
    | cons p ps ih =>
      intro d hd t
      rw [List.foldl_cons]
      by_cases hi : (d.image (tag p)).isSome
      · have e : stepPsf tag draws d p = d := by unfold stepPsf; rw [if_pos hi]
        rw [e]
        obtain ⟨h1, h2⟩ := ih d hd t
        rw [h1, h2]
        by_cases ht : tag p = t
        · rw [ht] at hi
          obtain ⟨x, hx⟩ := Option.isSome_iff_exists.1 hi
          rw [hx]; simp
        · rw [List.find?_cons_of_neg (by simpa using ht)]; simp
      · have e : stepPsf tag draws d p = ⟨(tag p, p) :: d.images, (tag p, ⟨p, draws⟩) :: d.samples⟩ := by
          unfold stepPsf; rw [if_neg hi]
        obtain ⟨h1, h2⟩ := ih (stepPsf tag draws d p) (by
          intro u
          rw [e, image_cons, chain_cons]
          by_cases hu : tag p = u
          · rw [if_pos hu, if_pos hu]; rfl
          · rw [if_neg hu, if_neg hu]; exact hd u) t
        rw [h1, h2, e, image_cons]
        by_cases ht : tag p = t
        · rw [if_pos ht, List.find?_cons_of_pos (by simpa using ht)]
          rw [ht] at hi
          have : d.image t = none := by simpa using hi
          rw [this]; simp
        · rw [if_neg ht, List.find?_cons_of_neg (by simpa using ht)]; simp
  have hS : ∀ (d : Dir), (∀ u, (d.chain u) = (d.image u).map fun p => ⟨p, draws⟩) → ∀ p,
      (stepSersic tag draws d p).image = (stepPsf tag draws d p).image ∧
      (stepSersic tag draws d p).chain = (stepPsf tag draws d p).chain := by
    intro d hd p
    by_cases hi : (d.image (tag p)).isSome
    · have hc : (d.chain (tag p)).isSome := by rw [hd]; simpa using hi
      unfold stepSersic stepPsf
      simp only [hi, hc, if_true, and_self]
    · have hn : d.image (tag p) = none := by simpa using hi
      have hc : d.chain (tag p) = none := by rw [hd, hn]; rfl
      have h1 : Dir.chain ⟨(tag p, p) :: d.images, d.samples⟩ (tag p) = none := hc
      have h2 : Dir.image ⟨(tag p, p) :: d.images, d.samples⟩ (tag p) = some p := by rw [image_cons, if_pos rfl]
      unfold stepSersic stepPsf
      simp only [hn, h1, h2, Option.isSome_none, Bool.false_eq_true, if_false]
      exact ⟨trivial, trivial⟩
  have hSP : ∀ (d e : Dir), d.image = e.image → d.chain = e.chain → (∀ u, (d.chain u) = (d.image u).map fun p => ⟨p, draws⟩) →
      (ps.foldl (stepSersic tag draws) d).image = (ps.foldl (stepPsf tag draws) e).image ∧
      (ps.foldl (stepSersic tag draws) d).chain = (ps.foldl (stepPsf tag draws) e).chain := by
    clear hP
    have hpe : ∀ (d e : Dir) (p : Point), d.image = e.image → d.chain = e.chain →
        (stepPsf tag draws d p).image = (stepPsf tag draws e p).image ∧
        (stepPsf tag draws d p).chain = (stepPsf tag draws e p).chain := by
      intro d e p hi hc
      unfold stepPsf
      rw [hi]
      by_cases h : (e.image (tag p)).isSome
      · rw [if_pos h, if_pos h]; exact ⟨hi, hc⟩
      · rw [if_neg h, if_neg h]
        constructor
        · funext u; rw [image_cons, image_cons, hi]
        · funext u; rw [chain_cons, chain_cons, hc]
    induction ps with
    | nil => intro d e hi hc _; exact ⟨hi, hc⟩
    | cons p ps ih =>
      intro d e hi hc hd
      rw [List.foldl_cons, List.foldl_cons]
      obtain ⟨a1, a2⟩ := hS d hd p
      obtain ⟨b1, b2⟩ := hpe d e p hi hc
      apply ih
      · rw [a1, b1]
      · rw [a2, b2]
      · intro u
        rw [a1, a2]
        unfold stepPsf
        by_cases h : (d.image (tag p)).isSome
        · rw [if_pos h]; exact hd u
        · rw [if_neg h, image_cons, chain_cons]
          by_cases hu : tag p = u
          · rw [if_pos hu, if_pos hu]; rfl
          · rw [if_neg hu, if_neg hu]; exact hd u
  have h0 : ∀ u, (Dir.chain ⟨[], []⟩ u) = (Dir.image ⟨[], []⟩ u).map fun p => (⟨p, draws⟩ : Samples) := by
    intro u; rfl
  obtain ⟨h1, h2⟩ := hP ⟨[], []⟩ h0 t
  obtain ⟨h3, h4⟩ := hSP ⟨[], []⟩ ⟨[], []⟩ rfl rfl h0
  have hnone : Dir.image ⟨[], []⟩ t = none := rfl
  rw [hnone] at h1 h2
  rw [h3, h4, h1, h2]
  simp

theorem find_nodup (tag : Point → List Char) (ps : List Point) (h : (ps.map tag).Nodup) (p : Point) (hp : p ∈ ps) :
    ps.find? (fun r => tag r == tag p) = some p := by
  induction ps with
  | nil => simp at hp
  | cons r ps ih =>
    rw [List.map_cons, List.nodup_cons] at h
    by_cases hr : tag r = tag p
    · rw [List.find?_cons_of_pos (by simpa using hr)]
      rcases List.mem_cons.1 hp with e | e
      · rw [e]
      · exact absurd (List.mem_map.2 ⟨p, e, hr.symm⟩) h.1
    · rw [List.find?_cons_of_neg (by simpa using hr)]
      rcases List.mem_cons.1 hp with e | e
      · exact absurd (by rw [e]) hr
      · exact ih h.2 e

/-- C160 (catalog). The catalog is made when some tag has a chain. Then row `i` is filled, with `id` `i`, exactly when the
tag `i` has a chain with as many samples as the first chain found. -/
theorem C160_catalog (d : Dir) (tags : List (List Char)) :
    (makeCatalog d tags = none ↔ ∀ t ∈ tags, d.chain t = none) ∧
    (∀ rows, makeCatalog d tags = some rows → rows.length = tags.length ∧
      ∃ (pre post : List (List Char)) (t : List Char) (s : Samples), tags = pre ++ t :: post ∧ (∀ u ∈ pre, d.chain u = none) ∧
        d.chain t = some s ∧
        ∀ (i : Nat) (u : List Char), tags[i]? = some u → ∀ (j : Nat) (c : Samples),
          rows[i]? = some (some (j, c)) ↔ j = i ∧ d.chain u = some c ∧ c.n = s.n) := by
  have hfm : ∀ tags : List (List Char), (tags.filterMap d.chain = [] ↔ ∀ t ∈ tags, d.chain t = none) ∧
      (∀ s rest, tags.filterMap d.chain = s :: rest → ∃ (pre post : List (List Char)) (t : List Char),
        tags = pre ++ t :: post ∧ (∀ u ∈ pre, d.chain u = none) ∧ d.chain t = some s) := by
    intro tags
    refine ⟨List.filterMap_eq_nil_iff, ?_⟩
    induction tags with
    | nil => intro s rest h; simp at h
    | cons t tags ih =>
      intro s rest h
      cases hc : d.chain t with
      | none =>
        rw [List.filterMap_cons_none hc] at h
        obtain ⟨pre, post, u, h1, h2, h3⟩ := ih s rest h
        refine ⟨t :: pre, post, u, by rw [h1]; rfl, ?_, h3⟩
        intro v hv
        rcases List.mem_cons.1 hv with e | e
        · rw [e]; exact hc
        · exact h2 v e
      | some c =>
        rw [List.filterMap_cons_some hc] at h
        injection h with h _
        exact ⟨[], tags, t, rfl, by simp, by rw [hc, h]⟩
  unfold makeCatalog
  cases hf : tags.filterMap d.chain with
  | nil =>
    refine ⟨⟨fun _ => (hfm tags).1.1 hf, fun _ => rfl⟩, ?_⟩
    intro rows h
    simp at h
  | cons s rest =>
    refine ⟨⟨fun h => by simp at h, fun h => ?_⟩, ?_⟩
    · rw [(hfm tags).1.2 h] at hf; cases hf
    · intro rows h
      injection h with h
      subst h
      obtain ⟨pre, post, t, h1, h2, h3⟩ := (hfm tags).2 s rest hf
      refine ⟨by simp, pre, post, t, s, h1, h2, h3, ?_⟩
      intro i u hu j c
      rw [List.getElem?_map, List.getElem?_zipIdx, hu]
      simp only [Option.map_some, Option.some.injEq]
      cases hc : d.chain u with
      | none => simp
      | some c' =>
        by_cases hn : c'.n = s.n
        · simp only [hn, if_true, Option.some.injEq, Prod.mk.injEq, zero_add]
          constructor
          · rintro ⟨e1, e2⟩
            exact ⟨e1.symm, e2, by rw [← e2]; exact hn⟩
          · rintro ⟨e1, e2, _⟩
            exact ⟨e1.symm, e2⟩
        · simp only [hn, if_false]
          constructor
          · intro h; cases h
          · rintro ⟨_, e2, e3⟩
            injection e2 with e2
            rw [e2] at hn
            exact absurd e3 hn

theorem catalog_of (d : Dir) (draws : Nat) (ps : List Point) (tag : Point → List Char) (f : Point → Point) (hne : ps ≠ [])
    (h : ∀ p ∈ ps, d.chain (tag p) = some ⟨f p, draws⟩) :
    makeCatalog d (ps.map tag) = some (ps.zipIdx.map fun e => some (e.2, ⟨f e.1, draws⟩)) := by
  have hfm : (ps.map tag).filterMap d.chain = ps.map fun p => ⟨f p, draws⟩ := by
    rw [List.filterMap_map]
    rw [List.filterMap_congr (g := fun p => some ⟨f p, draws⟩) (by intro p hp; exact h p hp)]
    rw [List.filterMap_eq_map']
  unfold makeCatalog
  rw [hfm]
  cases ps with
  | nil => exact absurd rfl hne
  | cons p ps =>
    simp only [List.map_cons]
    congr 1
    rw [← List.map_cons (f := tag), List.zipIdx_map, List.map_map]
    apply List.map_congr_left
    intro e he
    have hm : e.1 ∈ p :: ps := by
      have := List.mem_zipIdx he
      obtain ⟨_, _, h3⟩ := this
      rw [h3]; exact List.getElem_mem _
    simp only [Function.comp_apply, Prod.map_fst, Prod.map_snd, id]
    rw [h e.1 hm]
    simp

/-- C160, partial (summary of the runs over PSFs). In a new directory, when no two points of the grid have the same tag, row
`i` of the summary is the chain of point `i`.
Missing: points with the same tag, refuted below. -/
theorem C160_summary_partial (band : List Char) (noise : ℚ) (draws : Nat) (ps : List Point) (hne : ps ≠ [])
    (h : (ps.map (tagPsf band noise)).Nodup) :
    summaryPsf band noise (ps.foldl (stepPsf (tagPsf band noise) draws) ⟨[], []⟩) ps =
      some (ps.zipIdx.map fun e => some (e.2, ⟨e.1, draws⟩)) := by
  unfold summaryPsf
  apply catalog_of _ draws ps _ id hne
  intro p hp
  rw [(C160_first _ draws ps _).2.1, find_nodup _ ps h p hp]
  rfl

/-- C160, refuted (points that round to the same tag). The second of two points with the same tag is neither simulated nor
fitted, and the summary gives the chain of the first for both. -/
theorem C160_collision_refuted (band : List Char) (noise : ℚ) (draws : Nat) (p r : Point)
    (h : tagPsf band noise p = tagPsf band noise r) :
    summaryPsf band noise ([p, r].foldl (stepPsf (tagPsf band noise) draws) ⟨[], []⟩) [p, r] =
      some [some (0, ⟨p, draws⟩), some (1, ⟨p, draws⟩)] := by
  have hc := fun t => (C160_first (tagPsf band noise) draws [p, r] t).2.1
  have := catalog_of ([p, r].foldl (stepPsf (tagPsf band noise) draws) ⟨[], []⟩) draws [p, r] (tagPsf band noise) (fun _ => p)
    (by simp) (by
      intro x hx
      rw [hc]
      have : tagPsf band noise x = tagPsf band noise p := by
        rcases List.mem_cons.1 hx with e | e
        · rw [e]
        · rw [List.mem_singleton.1 e, h]
      rw [this, List.find?_cons_of_pos (by simp)]
      rfl)
  unfold summaryPsf
  rw [this]
  rfl

/-- The galaxies of 0.0501 and 0.0504 arcsec have the same tag. -/
example (band : List Char) : tagPsf band 0 ⟨1, 501 / 10000, 1, 0, 30⟩ = tagPsf band 0 ⟨1, 504 / 10000, 1, 0, 30⟩ := by
  apply ((C160_tag band 0 _ _ (by norm_num) (by norm_num)).1).2
  refine ⟨⟨10, ?_, ?_⟩, ⟨50, ?_, ?_⟩, ⟨100, ?_, ?_⟩, ⟨30, ?_, ?_⟩⟩ <;> (unfold Rounds; norm_num [abs_le])

/-- C160, refuted (summary of the runs over Sersic profiles). In a new directory, for any grid without points of the same
tag: the summary of a point of another PSF width than the last point is the chain of another point, the one with the width
of the last, whenever that is in the grid. -/
theorem C160_width_refuted (noise : ℚ) (draws : Nat) (ps : List Point) (last : Point) (hl : ps.getLast? = some last)
    (h : (ps.map (tagSersic noise)).Nodup)
    (hgrid : ∀ p ∈ ps, ({ p with fwhm := last.fwhm } : Point) ∈ ps) :
    summarySersic noise (ps.foldl (stepSersic (tagSersic noise) draws) ⟨[], []⟩) ps =
      some (ps.zipIdx.map fun e => some (e.2, ⟨{ e.1 with fwhm := last.fwhm }, draws⟩)) := by
  unfold summarySersic
  rw [hl]
  simp only
  apply catalog_of _ draws ps (fun p => tagSersic noise { p with fwhm := last.fwhm }) (fun p => { p with fwhm := last.fwhm })
    (by intro h0; rw [h0] at hl; cases hl)
  intro p hp
  rw [(C160_first _ draws ps _).2.2.2, find_nodup _ ps h _ (hgrid p hp)]
  rfl

/-- A grid of two widths: both rows of the summary are the chain of the second point. -/
example : summarySersic 0 ([⟨1, 1, 1, 1, 30⟩, ⟨1, 1, 1, 2, 30⟩].foldl (stepSersic (tagSersic 0) 100) ⟨[], []⟩)
    [⟨1, 1, 1, 1, 30⟩, ⟨1, 1, 1, 2, 30⟩] =
      some [some (0, ⟨⟨1, 1, 1, 2, 30⟩, 100⟩), some (1, ⟨⟨1, 1, 1, 2, 30⟩, 100⟩)] :=
  C160_width_refuted 0 100 [⟨1, 1, 1, 1, 30⟩, ⟨1, 1, 1, 2, 30⟩] ⟨1, 1, 1, 2, 30⟩ rfl (by decide +kernel) (by simp)

/-- C160, partial (summary of the runs over Sersic profiles). With one PSF width in the grid, and no two points of the same
tag, row `i` is the chain of point `i`.
Missing: several widths, refuted above. -/
theorem C160_width_partial (noise : ℚ) (draws : Nat) (ps : List Point) (hne : ps ≠ [])
    (h : (ps.map (tagSersic noise)).Nodup) (hw : ∀ p ∈ ps, ∀ r ∈ ps, p.fwhm = r.fwhm) :
    summarySersic noise (ps.foldl (stepSersic (tagSersic noise) draws) ⟨[], []⟩) ps =
      some (ps.zipIdx.map fun e => some (e.2, ⟨e.1, draws⟩)) := by
  obtain ⟨last, hl⟩ : ∃ last, ps.getLast? = some last := ⟨_, List.getLast?_eq_some_getLast hne⟩
  have hm : last ∈ ps := List.mem_of_getLast? hl
  have hsame : ∀ p ∈ ps, ({ p with fwhm := last.fwhm } : Point) = p := by
    intro p hp
    rw [← hw p hp last hm]
  rw [C160_width_refuted noise draws ps last hl h (by intro p hp; rw [hsame p hp]; exact hp)]
  congr 1
  apply List.map_congr_left
  intro e he
  obtain ⟨_, _, h3⟩ := List.mem_zipIdx he
  rw [hsame e.1 (by rw [h3]; exact List.getElem_mem _)]

/-- C160, refuted (restart over PSFs). An image whose fit was interrupted is never fitted again, whatever is run later; over
Sersic profiles every point of the grid has a chain after a run, whatever was there before. -/
theorem C160_restart_refuted (tag : Point → List Char) (draws : Nat) (d : Dir) (ps : List Point) :
    (∀ t, (d.image t).isSome → d.chain t = none → (ps.foldl (stepPsf tag draws) d).chain t = none) ∧
    (∀ p ∈ ps, ((ps.foldl (stepSersic tag draws) d).chain (tag p)).isSome) := by
  constructor
  · induction ps generalizing d with
    | nil => intro t _ h; exact h
    | cons p ps ih =>
      intro t hi hc
      rw [List.foldl_cons]
      unfold stepPsf
      by_cases h : (d.image (tag p)).isSome
      · rw [if_pos h]; exact ih d t hi hc
      · rw [if_neg h]
        have hne : tag p ≠ t := by intro e; rw [e] at h; exact h hi
        apply ih
        · rw [image_cons, if_neg hne]; exact hi
        · rw [chain_cons, if_neg hne]; exact hc
  · have hkeep : ∀ (d : Dir) (p : Point) (t : List Char), (d.chain t).isSome → ((stepSersic tag draws d p).chain t).isSome := by
      intro d p t ht
      unfold stepSersic
      by_cases h : (d.image (tag p)).isSome
      · simp only [h, if_true]
        by_cases hc : (d.chain (tag p)).isSome
        · rw [if_pos hc]; exact ht
        · rw [if_neg hc]
          obtain ⟨im, him⟩ := Option.isSome_iff_exists.1 h
          rw [him]
          simp only
          rw [chain_cons]
          by_cases e : tag p = t
          · rw [if_pos e]; rfl
          · rw [if_neg e]; exact ht
      · have h1 : ∀ u, Dir.chain ⟨(tag p, p) :: d.images, d.samples⟩ u = d.chain u := fun _ => rfl
        have h2 : Dir.image ⟨(tag p, p) :: d.images, d.samples⟩ (tag p) = some p := by rw [image_cons, if_pos rfl]
        simp only [h, Bool.false_eq_true, if_false, h1, h2]
        by_cases hc : (d.chain (tag p)).isSome
        · rw [if_pos hc, h1]; exact ht
        · rw [if_neg hc, chain_cons]
          by_cases e : tag p = t
          · rw [if_pos e]; rfl
          · rw [if_neg e]; exact ht
    have hmake : ∀ (d : Dir) (p : Point), ((stepSersic tag draws d p).chain (tag p)).isSome := by
      intro d p
      unfold stepSersic
      by_cases h : (d.image (tag p)).isSome
      · simp only [h, if_true]
        by_cases hc : (d.chain (tag p)).isSome
        · rw [if_pos hc]; exact hc
        · rw [if_neg hc]
          obtain ⟨im, him⟩ := Option.isSome_iff_exists.1 h
          rw [him]
          simp only
          rw [chain_cons, if_pos rfl]; rfl
      · have h1 : ∀ u, Dir.chain ⟨(tag p, p) :: d.images, d.samples⟩ u = d.chain u := fun _ => rfl
        have h2 : Dir.image ⟨(tag p, p) :: d.images, d.samples⟩ (tag p) = some p := by rw [image_cons, if_pos rfl]
        simp only [h, Bool.false_eq_true, if_false, h1, h2]
        by_cases hc : (d.chain (tag p)).isSome
        · rw [if_pos hc, h1]; exact hc
        · rw [if_neg hc, chain_cons, if_pos rfl]; rfl
    have hk : ∀ (qs : List Point) (d : Dir) (t : List Char), (d.chain t).isSome →
        ((qs.foldl (stepSersic tag draws) d).chain t).isSome := by
      intro qs
      induction qs with
      | nil => intro d t h; exact h
      | cons q qs ih => intro d t h; exact ih _ t (hkeep d q t h)
    induction ps generalizing d with
    | nil => intro p hp; simp at hp
    | cons r ps ih =>
      intro p hp
      rw [List.foldl_cons]
      rcases List.mem_cons.1 hp with e | e
      · rw [e]; exact hk ps _ _ (hmake d r)
      · exact ih _ p e

/-- C160, partial (a first run). In a new directory, when no two points of the grid have the same tag (and, over Sersic
profiles, there is one PSF width), the run ends without error and leaves the grid and, in its order, the chain of every point.
Missing: a second run in the same directory, refuted below. -/
theorem C160_run_partial (band : List Char) (noise : ℚ) (draws : Nat) (ps : List Point) (hne : ps ≠ []) :
    ((ps.map (tagPsf band noise)).Nodup →
      (runPsf band noise draws ⟨⟨[], []⟩, none, none⟩ ps).2 = none ∧
      (runPsf band noise draws ⟨⟨[], []⟩, none, none⟩ ps).1.grid = some ps ∧
      (runPsf band noise draws ⟨⟨[], []⟩, none, none⟩ ps).1.summary =
        some (ps.zipIdx.map fun e => some (e.2, ⟨e.1, draws⟩))) ∧
    ((ps.map (tagSersic noise)).Nodup → (∀ p ∈ ps, ∀ r ∈ ps, p.fwhm = r.fwhm) →
      (runSersic noise draws ⟨⟨[], []⟩, none, none⟩ ps).2 = none ∧
      (runSersic noise draws ⟨⟨[], []⟩, none, none⟩ ps).1.grid = some ps ∧
      (runSersic noise draws ⟨⟨[], []⟩, none, none⟩ ps).1.summary =
        some (ps.zipIdx.map fun e => some (e.2, ⟨e.1, draws⟩))) := by
  constructor
  · intro h
    unfold runPsf run
    simp only [C160_summary_partial band noise draws ps hne h, and_self]
  · intro h hw
    unfold runSersic run
    simp only [C160_width_partial noise draws ps hne h hw, and_self]

/-- C160 (a run). Whatever the directory, a run without error had no summary before it, and leaves the summary of the chains
that are there after it. With no chain for any tag nothing is written but the grid. -/
theorem C160_run (step : Dir → Point → Dir) (summary : Dir → List Point → Option (List (Option (Nat × Samples)))) (o : Out)
    (ps : List Point) :
    (run step summary o ps).1.dir = ps.foldl step o.dir ∧ (run step summary o ps).1.grid = some ps ∧
    ((run step summary o ps).2 = none ↔ o.summary = none ∧ (summary (ps.foldl step o.dir) ps).isSome) ∧
    ((run step summary o ps).2 = none → (run step summary o ps).1.summary = summary (ps.foldl step o.dir) ps) ∧
    ((run step summary o ps).2 ≠ none → (run step summary o ps).1.summary = o.summary) ∧
    ((run step summary o ps).2 = some .noChain ↔ summary (ps.foldl step o.dir) ps = none) := by
  unfold run
  cases h : summary (ps.foldl step o.dir) ps with
  | none => simp [h]
  | some rows => cases h2 : o.summary <;> simp [h]

/-- C160 (a run in a directory of an interrupted run). Over Sersic profiles every point of the grid has a chain after the run,
whatever was there; over PSFs an image left without its chain has none after any run. -/
theorem C160_run_restart (band : List Char) (noise : ℚ) (draws : Nat) (o : Out) (ps : List Point) :
    (∀ p ∈ ps, ((runSersic noise draws o ps).1.dir.chain (tagSersic noise p)).isSome) ∧
    (∀ t, (o.dir.image t).isSome → o.dir.chain t = none → (runPsf band noise draws o ps).1.dir.chain t = none) := by
  unfold runSersic runPsf
  rw [(C160_run _ _ o ps).1, (C160_run _ _ o ps).1]
  exact ⟨(C160_restart_refuted (tagSersic noise) draws o.dir ps).2, (C160_restart_refuted (tagPsf band noise) draws o.dir ps).1⟩

/-- A directory with the image of a point and no chain: a run over Sersic profiles makes the chain, one over PSFs ends with
no chain at all. -/
example : let p : Point := ⟨1, 1, 1, 1, 30⟩
    (runSersic 0 100 ⟨⟨[(tagSersic 0 p, p)], []⟩, none, none⟩ [p]).1.summary = some [some (0, ⟨p, 100⟩)] ∧
    (runPsf ['b'] 0 100 ⟨⟨[(tagPsf ['b'] 0 p, p)], []⟩, none, none⟩ [p]).2 = some .noChain := by
  decide +kernel

/-- C160, refuted (a second run). In a directory where a run has ended, a run over any grid never ends without error: it writes
its grid over the first and leaves the summary of the first beside it. -/
theorem C160_rerun_refuted (band : List Char) (noise : ℚ) (draws : Nat) (o : Out) (old : List (Option (Nat × Samples)))
    (h : o.summary = some old) (ps : List Point) :
    ((runPsf band noise draws o ps).2 ≠ none ∧ (runPsf band noise draws o ps).1.grid = some ps ∧
      (runPsf band noise draws o ps).1.summary = some old) ∧
    ((runSersic noise draws o ps).2 ≠ none ∧ (runSersic noise draws o ps).1.grid = some ps ∧
      (runSersic noise draws o ps).1.summary = some old) := by
  have key : ∀ step summary, (run step summary o ps).2 ≠ none ∧ (run step summary o ps).1.grid = some ps ∧
      (run step summary o ps).1.summary = some old := by
    intro step summary
    have hr := C160_run step summary o ps
    have hne : (run step summary o ps).2 ≠ none := by
      intro e
      have := (hr.2.2.1.1 e).1
      rw [h] at this
      cases this
    exact ⟨hne, hr.2.1, by rw [hr.2.2.2.2.1 hne, h]⟩
  exact ⟨key _ _, key _ _⟩

/-- One point is run, then two others: the summary has one row, of the point that is no longer in the file of the grid. -/
example : let a := (runPsf ['b'] 0 100 ⟨⟨[], []⟩, none, none⟩ [⟨1, 1, 1, 1, 30⟩]).1
    let b := runPsf ['b'] 0 100 a [⟨2, 1, 1, 1, 30⟩, ⟨3, 1, 1, 1, 30⟩]
    b.2 = some .fileExists ∧ b.1.grid = some [⟨2, 1, 1, 1, 30⟩, ⟨3, 1, 1, 1, 30⟩] ∧
    b.1.summary = some [some (0, ⟨⟨1, 1, 1, 1, 30⟩, 100⟩)] := by
  decide +kernel

/-- C160, refuted (last figure). The figure of fluxes of the runs over Sersic profiles is asked for with a keyword that the
function does not have; the one of the runs over PSFs is made. -/
theorem C160_figure_refuted :
    accepts apfluxParams apfluxSersic = false ∧ "bands" ∈ apfluxSersic ∧ "bands" ∉ apfluxParams ∧
    (∀ k ∈ ["scat", "tcat", "band", "colorby"], k ∈ apfluxParams) ∧ accepts apfluxParams apfluxPsf = true ∧
    ∀ params keywords : List String, accepts params keywords = true ↔ ∀ k ∈ keywords, k ∈ params := by
  refine ⟨by decide +kernel, by decide +kernel, by decide +kernel, by decide +kernel, by decide +kernel, ?_⟩
  intro params keywords
  unfold accepts
  rw [List.all_eq_true]
  constructor
  · intro h k hk; simpa using h k hk
  · intro h k hk; simpa using h k hk

end Forcepho.Galsim
