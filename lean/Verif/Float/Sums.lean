import Verif.Float.Basic
import Verif.Kernel.Gpu
import Mathlib.Data.List.Forall2
import Mathlib.Analysis.SpecialFunctions.Exp

/-! # Sums over pixels in floating point

The accumulation of `chi2` (double) and of its gradient (single precision) over the pixels of all exposures of a band:
`pchi2 += chi2` and `pdchi2_dp[...] += dchi2_dp[j]` on the CPU (compute_gaussians_kernel.cc:293, 302), the shuffle
reductions and atomic additions in any order on the GPU (compute_gaussians_kernel.cu:150-177, 286, 298).  The values of
the pixels are given. -/

set_option autoImplicit false
set_option linter.unusedSectionVars false

namespace Forcepho.Float

open Forcepho.Kernel (warpAdds warpReduce reduceStep shflDown)

/-- A floating point number with `p` bits. -/
@[ext] structure Fl (p : Nat) where
  val : ℝ

/-- Addition with rounding. -/
noncomputable instance (p : Nat) : Add (Fl p) := ⟨fun a b => ⟨fl p (a.val + b.val)⟩⟩

/-- The accumulation on the CPU (compute_gaussians_kernel.cc:247-304): exposure by exposure, pixel by pixel. -/
noncomputable def cpuSum {p : Nat} (es : List (List (Fl p))) (a : Fl p) : Fl p :=
  es.foldl (fun a e => e.foldl (fun a x => a + x) a) a

/-- The accumulation on the GPU with `B` threads (compute_gaussians_kernel.cu:255-304): for each exposure the sums of
the warps are added in some order. -/
inductive GpuSum {p : Nat} (B : Nat) : List (List (Fl p)) → Fl p → Fl p → Prop
  | nil (a : Fl p) : GpuSum B [] a a
  | cons {e : List (Fl p)} {es : List (List (Fl p))} {a c : Fl p} (junk : Nat → Nat → Nat → Fl p) (adds : List (Fl p)) :
      adds.Perm (warpAdds B e.length (fun i => (e[i]?).getD ⟨0⟩) junk) →
      GpuSum B es (adds.foldl (fun a x => a + x) a) c → GpuSum B (e :: es) a c

/-! ## Closeness -/

lemma add_val {p : Nat} (a b : Fl p) : (a + b).val = fl p (a.val + b.val) := rfl

/-- `x` is `S` up to `k` roundings of terms with total size `A`. -/
def Close {p : Nat} (k : Nat) (x : Fl p) (S A : ℝ) : Prop :=
  |x.val - S| ≤ ((1 + 1 / 2 ^ p) ^ k - 1) * A ∧ |S| ≤ A

lemma one_le_g (p k : Nat) : (1 : ℝ) ≤ (1 + 1 / 2 ^ p) ^ k :=
  one_le_pow₀ (by
    have : (0 : ℝ) ≤ 1 / 2 ^ p := by positivity
    linarith)

lemma Close.mono {p : Nat} {k m : Nat} {x : Fl p} {S A : ℝ} (h : Close k x S A) (hkm : k ≤ m) : Close m x S A := by
  refine ⟨h.1.trans ?_, h.2⟩
  have hA : 0 ≤ A := (abs_nonneg _).trans h.2
  have h1 : (1 : ℝ) ≤ 1 + 1 / 2 ^ p := by
    have : (0 : ℝ) ≤ 1 / 2 ^ p := by positivity
    linarith
  have := pow_le_pow_right₀ h1 hkm
  gcongr

lemma Close.add {p : Nat} {k : Nat} {x y : Fl p} {S A S' A' : ℝ} (h : Close k x S A) (h' : Close k y S' A') :
    Close (k + 1) (x + y) (S + S') (A + A') := by
  have hA : 0 ≤ A := (abs_nonneg _).trans h.2
  have hA' : 0 ≤ A' := (abs_nonneg _).trans h'.2
  constructor
  · rw [add_val]
    have h1 := add_close h.1 h'.1
    have h2 : |S + S'| ≤ A + A' := (abs_add_le _ _).trans (add_le_add h.2 h'.2)
    have h3 := fl_close p _ _ _ _ h1 h2
    refine h3.trans (le_of_eq ?_)
    rw [pow_succ]
    ring
  · exact (abs_add_le _ _).trans (add_le_add h.2 h'.2)

lemma close_self {p : Nat} (x : Fl p) : Close 0 x x.val |x.val| := by
  constructor
  · simp
  · exact le_rfl

lemma close_zero {p : Nat} : Close 0 (⟨0⟩ : Fl p) 0 0 := by
  constructor <;> simp

lemma close_foldl {p : Nat} (l : List (Fl p)) (w : List (ℝ × ℝ × Nat)) (k : Nat)
    (h : List.Forall₂ (fun x t => Close k x t.1 t.2.1) l w) : ∀ (a : Fl p) (m : Nat) (S A : ℝ), k ≤ m → Close m a S A →
    Close (m + l.length) (l.foldl (fun a x => a + x) a) (S + w.sum.1) (A + w.sum.2.1) := by
  induction h with
  | nil =>
    intro a m S A hm ha
    simpa using ha
  | @cons x t l w hx hl ih =>
    intro a m S A hm ha
    have h1 := ha.add (hx.mono hm)
    have h2 := ih (a + x) (m + 1) _ _ (by omega) h1
    have e : m + (x :: l).length = m + 1 + l.length := by rw [List.length_cons]; omega
    have e1 : S + (t :: w).sum.1 = S + t.1 + w.sum.1 := by rw [List.sum_cons, Prod.fst_add]; ring
    have e2 : A + (t :: w).sum.2.1 = A + t.2.1 + w.sum.2.1 := by
      rw [List.sum_cons, Prod.snd_add, Prod.fst_add]
      ring
    rw [e, e1, e2]
    exact h2

/-- The value, the size and the number of a term. -/
noncomputable def term {p : Nat} (x : Fl p) : ℝ × ℝ × Nat := (x.val, |x.val|, 1)

lemma close_step {p : Nat} (k d : Nat) (v : Nat → Fl p) (m : Nat → ℝ × ℝ × Nat)
    (h : ∀ i < 32, Close k (v i) (m i).1 (m i).2.1) :
    ∀ i < 32, Close (k + 1) (reduceStep v d i) (reduceStep m d i).1 (reduceStep m d i).2.1 := by
  intro i hi
  simp only [reduceStep, shflDown]
  split
  next h' => exact (h i hi).add (h (i + d) h')
  next => exact (h i hi).add (h i hi)

lemma close_warp {p : Nat} (v : Nat → Fl p) (m : Nat → ℝ × ℝ × Nat) (h : ∀ i < 32, Close 0 (v i) (m i).1 (m i).2.1) :
    Close 5 (warpReduce v) (warpReduce m).1 (warpReduce m).2.1 :=
  close_step 4 1 _ _ (close_step 3 2 _ _ (close_step 2 4 _ _ (close_step 1 8 _ _ (close_step 0 16 v m h)))) 0 (by norm_num)

lemma forall2_flatMap {α β ι : Type} (R : α → β → Prop) (l : List ι) (f : ι → List α) (g : ι → List β)
    (h : ∀ i ∈ l, List.Forall₂ R (f i) (g i)) : List.Forall₂ R (l.flatMap f) (l.flatMap g) := by
  induction l with
  | nil => exact List.Forall₂.nil
  | cons i l ih =>
    rw [List.flatMap_cons, List.flatMap_cons]
    exact List.rel_append (h i (by simp)) (ih fun j hj => h j (by simp [hj]))

lemma warpAdds_rel {p : Nat} (B N : Nat) (hB32 : 32 ∣ B) (hN32 : 32 ∣ N) (f : Nat → Fl p)
    (junk : Nat → Nat → Nat → Fl p) (junk' : Nat → Nat → Nat → ℝ × ℝ × Nat) :
    List.Forall₂ (fun x t => Close 5 x t.1 t.2.1 ∧ t.2.2 = 32) (warpAdds B N f junk)
      (warpAdds B N (fun i => term (f i)) junk') := by
  obtain ⟨b, rfl⟩ := hB32
  obtain ⟨n, rfl⟩ := hN32
  unfold warpAdds
  refine forall2_flatMap _ _ _ _ fun k _ => forall2_flatMap _ _ _ _ fun w hw => ?_
  rw [List.mem_range] at hw
  split
  next hlt =>
    have hlane : ∀ l < 32, 32 * w + l < 32 * b ∧ k * (32 * b) + 32 * w + l < 32 * n := by
      intro l hl
      have e : k * (32 * b) + 32 * w = 32 * (k * b + w) := by ring
      rw [e] at hlt ⊢
      omega
    refine List.Forall₂.cons ⟨close_warp _ _ fun i hi => ?_, ?_⟩ List.Forall₂.nil
    · rw [if_pos (hlane i hi), if_pos (hlane i hi)]
      exact close_self _
    · rw [Kernel.C52_warp]
      have : ((List.range 32).map fun l => if 32 * w + l < 32 * b ∧ k * (32 * b) + 32 * w + l < 32 * n then
          term (f (k * (32 * b) + 32 * w + l)) else junk' k w l) =
          (List.range 32).map fun l => term (f (k * (32 * b) + 32 * w + l)) := by
        apply List.map_congr_left
        intro l hl
        rw [if_pos (hlane l (List.mem_range.mp hl))]
      rw [this]
      simp only [List.range, List.range.loop, List.map_cons, List.map_nil, List.sum_cons, List.sum_nil, Prod.snd_add,
        term]
      rfl
  next => exact List.Forall₂.nil

lemma sum_getD {M : Type} [AddCommMonoid M] {p : Nat} (e : List (Fl p)) (g : Fl p → M) :
    ∑ i ∈ Finset.range e.length, g ((e[i]?).getD ⟨0⟩) = (e.map g).sum := by
  induction e with
  | nil => simp
  | cons x e ih =>
    rw [List.length_cons, Finset.sum_range_succ', List.map_cons, List.sum_cons, add_comm]
    simp only [List.getElem?_cons_succ, List.getElem?_cons_zero, Option.getD_some]
    rw [ih]

lemma close_exposure {p : Nat} (B : Nat) (hB : 0 < B) (hB32 : 32 ∣ B) (e : List (Fl p)) (he : 32 ∣ e.length)
    (junk : Nat → Nat → Nat → Fl p) (adds : List (Fl p))
    (hp : adds.Perm (warpAdds B e.length (fun i => (e[i]?).getD ⟨0⟩) junk)) :
    ∃ w : List (ℝ × ℝ × Nat), List.Forall₂ (fun x t => Close 5 x t.1 t.2.1) adds w ∧ w.sum = (e.map term).sum ∧
      adds.length * 32 = e.length := by
  have hrel := warpAdds_rel B e.length hB32 he (fun i => (e[i]?).getD ⟨0⟩) junk (fun _ _ _ => 0)
  obtain ⟨w, hw, hwp⟩ := List.perm_comp_forall₂ hp hrel
  have hsum : w.sum = (e.map term).sum := by
    rw [hwp.sum_eq, Kernel.C52_accumulate B e.length hB hB32 he]
    exact sum_getD e term
  refine ⟨w, hw.imp fun _ _ h => h.1, hsum, ?_⟩
  have hcount : w.sum.2.2 = adds.length * 32 := by
    clear hsum hwp hp hrel
    induction hw with
    | nil => simp
    | cons hx _ ih =>
      rw [List.sum_cons, Prod.snd_add, Prod.snd_add, ih, hx.2, List.length_cons]
      ring
  have hlen : (e.map term).sum.2.2 = e.length := by
    clear hsum hrel hp he hwp
    induction e with
    | nil => simp
    | cons x e ih =>
      rw [List.map_cons, List.sum_cons, Prod.snd_add, Prod.snd_add, ih, List.length_cons, term]
      ring
  rw [← hcount, hsum, hlen]

/-- The total of the terms. -/
noncomputable def total {p : Nat} (es : List (List (Fl p))) : ℝ := (es.flatten.map (·.val)).sum

/-- The total of their sizes. -/
noncomputable def size {p : Nat} (es : List (List (Fl p))) : ℝ := (es.flatten.map fun x => |x.val|).sum

lemma term_sum {p : Nat} (e : List (Fl p)) :
    (e.map term).sum.1 = (e.map (·.val)).sum ∧ (e.map term).sum.2.1 = (e.map fun x => |x.val|).sum := by
  induction e with
  | nil => simp
  | cons x e ih =>
    simp only [List.map_cons, List.sum_cons, Prod.fst_add, Prod.snd_add, ih.1, ih.2, term, and_self]

lemma gpu_close {p : Nat} (B : Nat) (hB : 0 < B) (hB32 : 32 ∣ B) (es : List (List (Fl p))) (a r : Fl p)
    (h : GpuSum B es a r) : (∀ e ∈ es, 32 ∣ e.length) → ∀ (m : Nat) (S A : ℝ), 5 ≤ m → Close m a S A →
    Close (m + es.flatten.length / 32) r (S + total es) (A + size es) := by
  induction h with
  | nil a =>
    intro _ m S A _ ha
    simpa [total, size] using ha
  | @cons e es a c junk adds hp _ ih =>
    intro hd m S A hm ha
    obtain ⟨w, hw, hsum, hlen⟩ := close_exposure B hB hB32 e (hd e (by simp)) junk adds hp
    have h1 := close_foldl adds w 5 hw a m S A hm ha
    rw [hsum, (term_sum e).1, (term_sum e).2] at h1
    have h2 := ih (fun e' he' => hd e' (by simp [he'])) _ _ _ (by omega) h1
    have e1 : m + (e :: es).flatten.length / 32 = m + adds.length + es.flatten.length / 32 := by
      rw [List.flatten_cons, List.length_append]
      omega
    have e2 : S + total (e :: es) = S + (e.map (·.val)).sum + total es := by
      simp only [total, List.flatten_cons, List.map_append, List.sum_append]
      ring
    have e3 : A + size (e :: es) = A + (e.map fun x => |x.val|).sum + size es := by
      simp only [size, List.flatten_cons, List.map_append, List.sum_append]
      ring
    rw [e1, e2, e3]
    exact h2

lemma cpu_close {p : Nat} (es : List (List (Fl p))) : ∀ (a : Fl p) (m : Nat) (S A : ℝ), Close m a S A →
    Close (m + es.flatten.length) (cpuSum es a) (S + total es) (A + size es) := by
  induction es with
  | nil =>
    intro a m S A ha
    simpa [total, size, cpuSum] using ha
  | cons e es ih =>
    intro a m S A ha
    have hw : List.Forall₂ (fun (x : Fl p) (t : ℝ × ℝ × Nat) => Close 0 x t.1 t.2.1) e (e.map term) := by
      rw [List.forall₂_map_right_iff]
      exact List.forall₂_same.mpr fun x _ => close_self x
    have h1 := close_foldl e _ 0 hw a m S A (by omega) ha
    rw [(term_sum e).1, (term_sum e).2] at h1
    have h2 := ih _ _ _ _ h1
    have e1 : m + (e :: es).flatten.length = m + e.length + es.flatten.length := by
      rw [List.flatten_cons, List.length_append]
      omega
    have e2 : S + total (e :: es) = S + (e.map (·.val)).sum + total es := by
      simp only [total, List.flatten_cons, List.map_append, List.sum_append]
      ring
    have e3 : A + size (e :: es) = A + (e.map fun x => |x.val|).sum + size es := by
      simp only [size, List.flatten_cons, List.map_append, List.sum_append]
      ring
    rw [e1, e2, e3]
    exact h2

lemma growth (p n : Nat) (h : n ≤ 2 ^ p) : ((1 + 1 / 2 ^ p : ℝ) ^ n - 1) ≤ 2 * n / 2 ^ p := by
  have hp : (0 : ℝ) < 2 ^ p := by positivity
  have hx0 : (0 : ℝ) ≤ n / 2 ^ p := by positivity
  have hx1 : (n : ℝ) / 2 ^ p ≤ 1 := by
    rw [div_le_one hp]
    exact_mod_cast h
  have h1 : (1 + 1 / 2 ^ p : ℝ) ^ n ≤ Real.exp (n / 2 ^ p) := by
    have : (1 + 1 / 2 ^ p : ℝ) ≤ Real.exp (1 / 2 ^ p) := by
      have := Real.add_one_le_exp (1 / 2 ^ p : ℝ)
      linarith
    calc (1 + 1 / 2 ^ p : ℝ) ^ n ≤ Real.exp (1 / 2 ^ p) ^ n := by gcongr
      _ = Real.exp (n / 2 ^ p) := by rw [← Real.exp_nat_mul]; congr 1; ring
  have h2 : Real.exp ((n : ℝ) / 2 ^ p) ≤ 1 + 2 * (n / 2 ^ p) := by
    have := Real.abs_exp_sub_one_le (x := (n : ℝ) / 2 ^ p) (by rwa [abs_of_nonneg hx0])
    rw [abs_of_nonneg hx0] at this
    have := (abs_le.mp this).2
    linarith
  have : 2 * (n : ℝ) / 2 ^ p = 2 * (n / 2 ^ p) := by ring
  rw [this]
  linarith

/-- C131 (agreement). For any data the sum on the CPU and any run of the GPU differ from the exact sum, and so from each
other, by rounding only: for `n` pixels in single or double precision the relative error, in terms of the sum of the
sizes, is at most `2 n / 2^p` on the CPU and `(n / 16 + 10) / 2^p` on the GPU. -/
theorem C131_agree (p B : Nat) (hB : 0 < B) (hB32 : 32 ∣ B) (es : List (List (Fl p)))
    (hpad : ∀ e ∈ es, 32 ∣ e.length) (n : Nat) (hn : es.flatten.length = n) (hn' : n + 5 ≤ 2 ^ p) (r : Fl p)
    (hr : GpuSum B es ⟨0⟩ r) :
    |(cpuSum es ⟨0⟩).val - (es.flatten.map (·.val)).sum| ≤ 2 * n / 2 ^ p * (es.flatten.map fun x => |x.val|).sum ∧
    |r.val - (es.flatten.map (·.val)).sum| ≤ (n / 16 + 10) / 2 ^ p * (es.flatten.map fun x => |x.val|).sum ∧
    |r.val - (cpuSum es ⟨0⟩).val| ≤ (3 * n + 10) / 2 ^ p * (es.flatten.map fun x => |x.val|).sum := by
  have hsz : 0 ≤ size es := List.sum_nonneg (by
    intro x hx
    obtain ⟨y, -, rfl⟩ := List.mem_map.mp hx
    exact abs_nonneg _)
  have c1 := (cpu_close es ⟨0⟩ 0 0 0 close_zero).1
  have c2 := (gpu_close B hB hB32 es ⟨0⟩ r hr hpad 5 0 0 le_rfl (close_zero.mono (by omega))).1
  rw [hn] at c1 c2
  simp only [zero_add] at c1 c2
  have hp : (0 : ℝ) < 2 ^ p := by positivity
  have g1 := growth p n (by omega)
  have g2 := growth p (5 + n / 32) (by omega)
  have d1 : |(cpuSum es ⟨0⟩).val - total es| ≤ 2 * n / 2 ^ p * size es :=
    c1.trans (mul_le_mul_of_nonneg_right g1 hsz)
  have hdiv : 2 * ((5 + n / 32 : Nat) : ℝ) / 2 ^ p ≤ (n / 16 + 10) / 2 ^ p := by
    have : ((n / 32 : Nat) : ℝ) ≤ n / 32 := Nat.cast_div_le
    push_cast
    gcongr
    linarith
  have d2 : |r.val - total es| ≤ (n / 16 + 10) / 2 ^ p * size es :=
    c2.trans (mul_le_mul_of_nonneg_right (g2.trans hdiv) hsz)
  refine ⟨d1, d2, ?_⟩
  have d3 := abs_sub_le r.val (total es) (cpuSum es ⟨0⟩).val
  rw [abs_sub_comm (total es)] at d3
  refine d3.trans ((add_le_add d2 d1).trans ?_)
  rw [← add_mul]
  refine mul_le_mul_of_nonneg_right ?_ hsz
  rw [← add_div]
  refine div_le_div_of_nonneg_right ?_ hp.le
  have : (0 : ℝ) ≤ n := by positivity
  linarith

/-- C131 (runs). Every list of exposures has a run of the GPU. -/
theorem C131_runs (p B : Nat) (es : List (List (Fl p))) : ∀ a, ∃ r, GpuSum B es a r := by
  induction es with
  | nil => exact fun a => ⟨a, .nil a⟩
  | cons e es ih =>
    intro a
    obtain ⟨r, hr⟩ := ih ((warpAdds B e.length (fun i => (e[i]?).getD ⟨0⟩) fun _ _ _ => ⟨0⟩).foldl (fun a x => a + x) a)
    exact ⟨r, .cons (fun _ _ _ => ⟨0⟩) _ (List.Perm.refl _) hr⟩

/-! ## Large sums -/

lemma fl_int (p : Nat) (hp : 1 ≤ p) (n : ℤ) (e : ℤ) (h : |n| ≤ 2 ^ p) : fl p ((n : ℝ) * 2 ^ e) = n * 2 ^ e :=
  fl_rep p hp _ ⟨n, e, h, rfl⟩

lemma fl_full : fl 24 (2 ^ 24 + 1) = 2 ^ 24 := by
  have hlog : Int.log 2 |(2 ^ 24 + 1 : ℝ)| = 24 := by
    rw [abs_of_pos (by norm_num)]
    apply le_antisymm
    · have : (2 ^ 24 + 1 : ℝ) < ((2 : Nat) : ℝ) ^ (25 : ℤ) := by norm_num
      have := (Int.lt_zpow_iff_log_lt (b := 2) (by norm_num) (by norm_num)).mp this
      omega
    · exact (Int.zpow_le_iff_le_log (b := 2) (by norm_num) (by norm_num)).mp (by norm_num)
  have hulp : ulp 24 (2 ^ 24 + 1) = 2 := by
    rw [ulp, hlog]
    norm_num
  rw [fl, if_neg (by norm_num), hulp]
  have e : (2 ^ 24 + 1 : ℝ) / 2 = ((2 ^ 23 : ℤ) : ℝ) + 1 / 2 := by norm_num
  have hfl : ⌊((2 ^ 23 : ℤ) : ℝ) + 1 / 2⌋ = 2 ^ 23 := by
    rw [Int.floor_eq_iff]
    norm_num
  have hfr : Int.fract (((2 ^ 23 : ℤ) : ℝ) + 1 / 2) = 1 / 2 := by
    rw [Int.fract, hfl]
    ring
  rw [e, roundEven, hfr, hfl, if_neg (lt_irrefl _), if_neg (lt_irrefl _), if_pos (by decide)]
  norm_num

/-- C131 (stagnation). The sum of `n` ones in single precision on the CPU stays at `2^24` for ever. -/
theorem C131_stagnation (n : Nat) : (cpuSum [List.replicate n (⟨1⟩ : Fl 24)] ⟨0⟩).val = min (n : ℝ) (2 ^ 24) := by
  have key : ∀ (n k : Nat), k ≤ 2 ^ 24 → ((List.replicate n (⟨1⟩ : Fl 24)).foldl (fun a x => a + x) (⟨(k : ℝ)⟩ : Fl 24)).val =
      min ((k : ℝ) + n) (2 ^ 24) := by
    intro n
    induction n with
    | zero =>
      intro k hk
      have : (k : ℝ) ≤ 2 ^ 24 := by exact_mod_cast hk
      simp [this]
    | succ n ih =>
      intro k hk
      rw [List.replicate_succ, List.foldl_cons]
      rcases Nat.lt_or_ge k (2 ^ 24) with h | h
      · have e : (⟨(k : ℝ)⟩ : Fl 24) + ⟨1⟩ = ⟨((k + 1 : Nat) : ℝ)⟩ := by
          ext
          rw [add_val]
          have := fl_int 24 (by norm_num) ((k : ℤ) + 1) 0 (by
            rw [abs_of_nonneg (by omega)]
            exact_mod_cast h)
          simpa using this
        rw [e, ih (k + 1) (by omega)]
        push_cast
        congr 1
        ring
      · obtain rfl : k = 2 ^ 24 := le_antisymm hk h
        have e : (⟨((2 ^ 24 : Nat) : ℝ)⟩ : Fl 24) + ⟨1⟩ = ⟨((2 ^ 24 : Nat) : ℝ)⟩ := by
          ext
          rw [add_val]
          have := fl_full
          push_cast
          norm_num at this ⊢
          exact this
        rw [e, ih _ le_rfl]
        push_cast
        have h0 : (0 : ℝ) ≤ n := by positivity
        rw [min_eq_right (by linarith), min_eq_right (by linarith)]
  have := key n 0 (by norm_num)
  simpa [cpuSum] using this

lemma ones_warp (v : Nat → Fl 24) (h : ∀ i < 32, v i = ⟨1⟩) : (warpReduce v).val = 32 := by
  have step : ∀ (v : Nat → Fl 24) (d k : Nat), k + 1 ≤ 24 → (∀ i < 32, (v i).val = 2 ^ k) →
      ∀ i < 32, (reduceStep v d i).val = 2 ^ (k + 1) := by
    intro v d k hk hv i hi
    have hs : (shflDown v d i).val = 2 ^ k := by
      rw [shflDown]
      split
      · exact hv _ (by assumption)
      · exact hv i hi
    have e : (reduceStep v d i).val = fl 24 ((v i).val + (shflDown v d i).val) := rfl
    rw [e, hv i hi, hs]
    have := fl_int 24 (by norm_num) 1 ((k + 1 : Nat) : ℤ) (by norm_num)
    rw [zpow_natCast] at this
    push_cast at this
    rw [one_mul] at this
    rw [← two_mul, ← pow_succ', this]
  have := step _ 1 4 (by norm_num) (step _ 2 3 (by norm_num) (step _ 4 2 (by norm_num) (step _ 8 1 (by norm_num)
    (step v 16 0 (by norm_num) (fun i hi => by rw [h i hi]; norm_num))))) 0 (by norm_num)
  rw [warpReduce, this]
  norm_num

/-- C131 (large sums). With `2^25` pixels of the same value the CPU gives half of what the GPU gives, which is right. -/
theorem C131_large_refuted (r : Fl 24) (h : GpuSum 32 [List.replicate (2 ^ 25) (⟨1⟩ : Fl 24)] ⟨0⟩ r) :
    r.val = 2 ^ 25 ∧ (cpuSum [List.replicate (2 ^ 25) (⟨1⟩ : Fl 24)] ⟨0⟩).val = 2 ^ 24 := by
  constructor
  · cases h with
    | cons junk adds hp hr =>
      cases hr
      obtain ⟨w, -, -, hlen⟩ := close_exposure 32 (by norm_num) (by norm_num) _ (by rw [List.length_replicate]; norm_num)
        junk adds hp
      rw [List.length_replicate] at hlen
      have hval : ∀ x ∈ adds, x.val = 32 := by
        intro x hx
        have hx := hp.mem_iff.mp hx
        unfold warpAdds at hx
        obtain ⟨k, -, hx⟩ := List.mem_flatMap.mp hx
        obtain ⟨q, hq, hx⟩ := List.mem_flatMap.mp hx
        rw [List.mem_range] at hq
        obtain rfl : q = 0 := by omega
        split at hx
        next hlt =>
          rw [List.length_replicate] at hlt
          rw [List.mem_singleton] at hx
          rw [hx]
          apply ones_warp
          intro i hi
          rw [List.length_replicate]
          have hi' : k * 32 + 32 * 0 + i < 2 ^ 25 := by omega
          rw [if_pos ⟨by omega, hi'⟩]
          dsimp only
          rw [List.getElem?_replicate, if_pos hi']
          rfl
        next => cases hx
      have key : ∀ (l : List (Fl 24)) (k : Nat), (∀ x ∈ l, x.val = 32) → k + l.length ≤ 2 ^ 20 →
          (l.foldl (fun a x => a + x) (⟨(k : ℝ) * 32⟩ : Fl 24)).val = ((k + l.length : Nat) : ℝ) * 32 := by
        intro l
        induction l with
        | nil => intro k _ _; simp
        | cons x l ih =>
          intro k hl hk
          rw [List.length_cons] at hk
          rw [List.foldl_cons]
          have e : (⟨(k : ℝ) * 32⟩ : Fl 24) + x = ⟨((k + 1 : Nat) : ℝ) * 32⟩ := by
            ext
            rw [add_val, hl x (by simp)]
            have := fl_int 24 (by norm_num) ((k : ℤ) + 1) 5 (by
              rw [abs_of_nonneg (by omega)]
              have : k + 1 ≤ 2 ^ 24 := by omega
              exact_mod_cast this)
            have e5 : (2 : ℝ) ^ (5 : ℤ) = 32 := by norm_num
            rw [e5] at this
            push_cast at this ⊢
            rw [← this]
            congr 1
            ring
          rw [e, ih (k + 1) (fun y hy => hl y (by simp [hy])) (by omega), List.length_cons]
          congr 2
          omega
      have hlen' : adds.length = 2 ^ 20 := by omega
      have := key adds 0 hval (by omega)
      rw [hlen'] at this
      simp only [Nat.cast_zero, zero_mul] at this
      rw [this]
      norm_num
  · rw [C131_stagnation]
    norm_num

end Forcepho.Float
