import Mathlib.Analysis.SpecialFunctions.Exp
import Mathlib.Analysis.SpecialFunctions.Log.Basic
import Mathlib.Analysis.Calculus.Deriv.Basic
import Mathlib.Data.List.Sort
import Mathlib.Data.List.ProdSigma
import Mathlib.Data.List.GetD
import Mathlib.LinearAlgebra.Lagrange
import Mathlib.Analysis.Calculus.Deriv.Polynomial
import Mathlib.Analysis.Calculus.Deriv.Add
import Mathlib.Analysis.Calculus.Deriv.Mul
import Mathlib.Algebra.BigOperators.Group.List.Basic

/-!
# C120: amplitudes of galaxy profiles are those that were fitted

Models the table written by `fit_profiles` (forcepho/mixtures/sersic_mix_oned.py:329-420) and its use by
`Galaxy.initialize_splines`, `Galaxy.amplitudes`, `damplitude_dsersic` and `damplitude_drh`
(forcepho/sources.py:623-692) for splines on a rectangular grid.  The optimizer is a function from Sersic index and
half-light radius to the logarithms of the amplitudes.  The splines of scipy are a parameter: what is assumed of
them is `Lib.Good`.  Storage as 32 bit numbers is idealised.
-/

set_option autoImplicit false
set_option linter.unusedSectionVars false

open scoped Classical

namespace Forcepho.Profile.Spline

/-! ## Model -/

/-- One line of the table: Sersic index, half-light radius, amplitudes. -/
structure Entry where
  n : ℝ
  r : ℝ
  amps : List ℝ

/-- `A / A.sum()` for `A = np.exp(res.x)` (sersic_mix_oned.py:386-387). -/
noncomputable def normalised (p : List ℝ) : List ℝ :=
  (p.map Real.exp).map fun a => a / (p.map Real.exp).sum

/-- The table written by `fit_profiles` (sersic_mix_oned.py:371-387): the loop over `product(ngrid, rgrid)`. -/
noncomputable def fitProfiles (fit : ℝ → ℝ → List ℝ) (ngrid rgrid : List ℝ) : List Entry :=
  (ngrid.product rgrid).map fun g => ⟨g.1, g.2, normalised (fit g.1 g.2)⟩

/-- `np.unique`. -/
noncomputable def unique (l : List ℝ) : List ℝ := l.dedup.insertionSort (· ≤ ·)

/-- `RectBivariateSpline(x, y, z)` and its derivatives `dx=1`, `dy=1`; `z k l` belongs to `x[k]`, `y[l]`. -/
structure Lib where
  value : List ℝ → List ℝ → (Nat → Nat → ℝ) → ℝ → ℝ → ℝ
  dx : List ℝ → List ℝ → (Nat → Nat → ℝ) → ℝ → ℝ → ℝ
  dy : List ℝ → List ℝ → (Nat → Nat → ℝ) → ℝ → ℝ → ℝ

/-- What `initialize_splines` leaves behind. -/
structure Splines where
  radii : List ℝ
  ngauss : Nat
  ngrid : List ℝ
  rgrid : List ℝ
  grid : Nat → Nat → Nat → ℝ
  sersicMin : ℝ

/-- The least element, `ValueError` (none) for nothing. -/
noncomputable def minimum : List ℝ → Option ℝ
  | [] => none
  | x :: xs => some (xs.foldl min x)

/-- `A[:, i].reshape(nn, nr)[k, l]`. -/
noncomputable def reshaped (table : List Entry) (nr i k l : Nat) : ℝ :=
  ((table[k * nr + l]?).bind fun e => e.amps[i]?).getD 0

/-- `initialize_splines(splinedata)` (sources.py:623-645) with `spline_type="rect"`; `none` is the exception of
`reshape`, or that of `RectBivariateSpline` for fewer than four nodes in a direction (cubic splines). -/
noncomputable def initializeSplines (radii : List ℝ) (ngauss : Nat) (table : List Entry) : Option Splines :=
  let ngrid := unique (table.map Entry.n)
  let rgrid := unique (table.map Entry.r)
  if table.length = ngrid.length * rgrid.length ∧ 4 ≤ ngrid.length ∧ 4 ≤ rgrid.length then
    (minimum (table.map Entry.n)).map fun m => ⟨radii, ngauss, ngrid, rgrid, reshaped table rgrid.length, m⟩
  else none

/-- `np.argmin(values)`: the first position of the least value. -/
noncomputable def argmin : List ℝ → Nat
  | [] => 0
  | x :: xs => if ∀ y ∈ xs, x ≤ y then 0 else argmin xs + 1

/-- `np.zeros(m)` with a one at position `i`. -/
def oneHot (m i : Nat) : List ℝ := (List.replicate m 0).set i 1

/-- `Galaxy.amplitudes` (sources.py:656-674). -/
noncomputable def amplitudes (L : Lib) (s : Splines) (sersic rhalf : ℝ) : List ℝ :=
  if sersic < s.sersicMin then oneHot s.radii.length (argmin (s.radii.map fun x => |rhalf - x|))
  else if rhalf < 0 then oneHot s.radii.length 0
  else (List.range s.ngauss).map fun i => L.value s.ngrid s.rgrid (s.grid i) sersic rhalf

/-- `Galaxy.damplitude_dsersic` (sources.py:675-683). -/
noncomputable def damplitudeDsersic (L : Lib) (s : Splines) (sersic rhalf : ℝ) : List ℝ :=
  if sersic < s.sersicMin ∨ rhalf < 0 then List.replicate s.radii.length 0
  else (List.range s.ngauss).map fun i => L.dx s.ngrid s.rgrid (s.grid i) sersic rhalf

/-- `Galaxy.damplitude_drh` (sources.py:686-694). -/
noncomputable def damplitudeDrh (L : Lib) (s : Splines) (sersic rhalf : ℝ) : List ℝ :=
  if sersic < s.sersicMin ∨ rhalf < 0 then List.replicate s.radii.length 0
  else (List.range s.ngauss).map fun i => L.dy s.ngrid s.rgrid (s.grid i) sersic rhalf

/-! ## What is assumed of the splines -/

/-- Nodes that `RectBivariateSpline` accepts: at least four, in increasing order. -/
def Grid (xs : List ℝ) : Prop := 4 ≤ xs.length ∧ xs.Pairwise (· < ·)

/-- A point is inside a grid. -/
def Within (xs : List ℝ) (x : ℝ) : Prop := (∃ a ∈ xs, a < x) ∧ ∃ b ∈ xs, x < b

/-- A map from tabulated values to functions that depends on the values at the nodes only and adds with them. -/
structure Additive (f : List ℝ → List ℝ → (Nat → Nat → ℝ) → ℝ → ℝ → ℝ) : Prop where
  congr : ∀ xs ys : List ℝ, Grid xs → Grid ys → ∀ z w : Nat → Nat → ℝ,
    (∀ k < xs.length, ∀ l < ys.length, z k l = w k l) → f xs ys z = f xs ys w
  add : ∀ xs ys : List ℝ, Grid xs → Grid ys → ∀ (z w : Nat → Nat → ℝ) (x y : ℝ),
    f xs ys (fun k l => z k l + w k l) x y = f xs ys z x y + f xs ys w x y

/-- Interpolating splines on a grid (no smoothing): they take the values given at the nodes, depend on nothing else,
add with the values and keep constants; what they report as derivatives are additive, zero for constants, and the
derivatives at points inside the grid. -/
structure Lib.Good (L : Lib) : Prop where
  value : Additive L.value
  dx : Additive L.dx
  dy : Additive L.dy
  node : ∀ xs ys : List ℝ, Grid xs → Grid ys → ∀ (z : Nat → Nat → ℝ) (k l : Nat) (x y : ℝ),
    xs[k]? = some x → ys[l]? = some y → L.value xs ys z x y = z k l
  const : ∀ xs ys : List ℝ, Grid xs → Grid ys → ∀ c x y : ℝ, L.value xs ys (fun _ _ => c) x y = c ∧
    L.dx xs ys (fun _ _ => c) x y = 0 ∧ L.dy xs ys (fun _ _ => c) x y = 0
  hasDx : ∀ xs ys : List ℝ, Grid xs → Grid ys → ∀ (z : Nat → Nat → ℝ) (x y : ℝ), Within xs x →
    HasDerivAt (fun t => L.value xs ys z t y) (L.dx xs ys z x y) x
  hasDy : ∀ xs ys : List ℝ, Grid xs → Grid ys → ∀ (z : Nat → Nat → ℝ) (x y : ℝ), Within ys y →
    HasDerivAt (fun t => L.value xs ys z x t) (L.dy xs ys z x y) y

/-! ## The table -/

theorem product_getElem? {α β : Type} (xs : List α) (ys : List β) (k l : Nat) (x : α) (y : β)
    (hx : xs[k]? = some x) (hy : ys[l]? = some y) : (xs.product ys)[k * ys.length + l]? = some (x, y) := by
  have hl : l < ys.length := (List.getElem?_eq_some_iff.mp hy).1
  induction xs generalizing k with
  | nil => simp at hx
  | cons a xs ih =>
    have hc : (a :: xs).product ys = ys.map (fun b => (a, b)) ++ xs.product ys := by
      simp [List.product]
    rw [hc]
    cases k with
    | zero =>
      simp only [List.getElem?_cons_zero, Option.some.injEq] at hx
      subst hx
      rw [Nat.zero_mul, Nat.zero_add, List.getElem?_append_left (by simpa using hl), List.getElem?_map, hy]
      rfl
    | succ k =>
      rw [List.getElem?_append_right (by simp [Nat.add_mul]; omega)]
      rw [List.length_map, show (k + 1) * ys.length + l - ys.length = k * ys.length + l by
        rw [Nat.add_mul]; omega]
      exact ih k (by simpa using hx)

theorem fit_length (fit : ℝ → ℝ → List ℝ) (xs ys : List ℝ) :
    (fitProfiles fit xs ys).length = xs.length * ys.length := by
  rw [fitProfiles, List.length_map]
  exact List.length_product xs ys

theorem unique_eq {col xs : List ℝ} (hs : xs.Pairwise (· < ·)) (hm : ∀ x, x ∈ col ↔ x ∈ xs) : unique col = xs := by
  have hnd : xs.Nodup := hs.imp fun h => ne_of_lt h
  have hp : (unique col).Perm xs := by
    refine (List.perm_insertionSort _ _).trans ?_
    rw [List.perm_ext_iff_of_nodup (List.nodup_dedup col) hnd]
    intro x
    rw [List.mem_dedup, hm]
  exact hp.eq_of_pairwise' (List.pairwise_insertionSort (· ≤ ·) _) (hs.imp le_of_lt)

theorem fold_min_le (l : List ℝ) (a : ℝ) : l.foldl min a ≤ a ∧ ∀ x ∈ l, l.foldl min a ≤ x := by
  induction l generalizing a with
  | nil => simp
  | cons b l ih =>
    obtain ⟨h1, h2⟩ := ih (min a b)
    simp only [List.foldl_cons]
    refine ⟨h1.trans (min_le_left _ _), ?_⟩
    intro x hx
    rcases List.mem_cons.mp hx with rfl | hx
    · exact h1.trans (min_le_right _ _)
    · exact h2 x hx

theorem fold_min_mem (l : List ℝ) (a : ℝ) : l.foldl min a = a ∨ l.foldl min a ∈ l := by
  induction l generalizing a with
  | nil => simp
  | cons b l ih =>
    simp only [List.foldl_cons]
    rcases ih (min a b) with h | h
    · rcases min_choice a b with h' | h'
      · left
        rw [h, h']
      · right
        rw [h, h']
        exact List.mem_cons_self
    · right
      exact List.mem_cons_of_mem _ h

theorem minimum_eq {l : List ℝ} (m : ℝ) (h : minimum l = some m) : m ∈ l ∧ ∀ x ∈ l, m ≤ x := by
  cases l with
  | nil => simp [minimum] at h
  | cons a l =>
    simp only [minimum, Option.some.injEq] at h
    subst h
    obtain ⟨h1, h2⟩ := fold_min_le l a
    refine ⟨?_, ?_⟩
    · rcases fold_min_mem l a with h | h
      · rw [h]
        exact List.mem_cons_self
      · exact List.mem_cons_of_mem _ h
    · intro x hx
      rcases List.mem_cons.mp hx with rfl | hx
      · exact h1
      · exact h2 x hx

theorem sum_map_div (l : List ℝ) (c : ℝ) : (l.map fun a => a / c).sum = l.sum / c := by
  induction l with
  | nil => simp
  | cons a l ih => simp [ih, add_div]

theorem sum_exp_pos {p : List ℝ} (h : p ≠ []) : 0 < (p.map Real.exp).sum := by
  cases p with
  | nil => exact absurd rfl h
  | cons a p =>
    rw [List.map_cons, List.sum_cons]
    have : 0 ≤ (p.map Real.exp).sum := List.sum_nonneg (by
      intro x hx
      obtain ⟨y, -, rfl⟩ := List.mem_map.mp hx
      exact (Real.exp_pos y).le)
    linarith [Real.exp_pos a]

theorem normalised_sum {p : List ℝ} (h : p ≠ []) : (normalised p).sum = 1 := by
  rw [normalised, sum_map_div]
  exact div_self (sum_exp_pos h).ne'

theorem sum_range_getD (l : List ℝ) : ((List.range l.length).map fun i => (l[i]?).getD 0).sum = l.sum := by
  congr 1
  apply List.ext_getElem?
  intro k
  rw [List.getElem?_map]
  rcases Nat.lt_or_ge k l.length with h | h
  · rw [List.getElem?_range h, List.getElem?_eq_getElem h]
    simp [h]
  · rw [List.getElem?_eq_none (by simpa using h), List.getElem?_eq_none h]
    rfl

/-- The facts about a table as `fit_profiles` writes it. -/
theorem initialize_fit (fit : ℝ → ℝ → List ℝ) (radii ngrid rgrid : List ℝ)
    (hn : Grid ngrid) (hr : Grid rgrid) :
    ∃ m, (m ∈ ngrid ∧ ∀ x ∈ ngrid, m ≤ x) ∧
      initializeSplines radii radii.length (fitProfiles fit ngrid rgrid) =
        some ⟨radii, radii.length, ngrid, rgrid, reshaped (fitProfiles fit ngrid rgrid) rgrid.length, m⟩ := by
  have hn0 : ngrid ≠ [] := List.length_pos_iff.mp (by have := hn.1; omega)
  have hr0 : rgrid ≠ [] := List.length_pos_iff.mp (by have := hr.1; omega)
  obtain ⟨n0, hn0'⟩ := List.exists_mem_of_ne_nil _ hn0
  obtain ⟨r0, hr0'⟩ := List.exists_mem_of_ne_nil _ hr0
  have hmn : ∀ x, x ∈ (fitProfiles fit ngrid rgrid).map Entry.n ↔ x ∈ ngrid := by
    intro x
    simp only [fitProfiles, List.map_map, List.mem_map, Function.comp_apply, Prod.exists, List.pair_mem_product]
    constructor
    · rintro ⟨a, b, ⟨ha, -⟩, rfl⟩
      exact ha
    · intro hx
      exact ⟨x, r0, ⟨hx, hr0'⟩, rfl⟩
  have hmr : ∀ x, x ∈ (fitProfiles fit ngrid rgrid).map Entry.r ↔ x ∈ rgrid := by
    intro x
    simp only [fitProfiles, List.map_map, List.mem_map, Function.comp_apply, Prod.exists, List.pair_mem_product]
    constructor
    · rintro ⟨a, b, ⟨-, hb⟩, rfl⟩
      exact hb
    · intro hx
      exact ⟨n0, x, ⟨hn0', hx⟩, rfl⟩
  have e1 := unique_eq hn.2 hmn
  have e2 := unique_eq hr.2 hmr
  have hlen : (fitProfiles fit ngrid rgrid).length = ngrid.length * rgrid.length := fit_length fit ngrid rgrid
  rcases hm : minimum ((fitProfiles fit ngrid rgrid).map Entry.n) with _ | m
  · exfalso
    rcases hcol : (fitProfiles fit ngrid rgrid).map Entry.n with _ | ⟨a, as⟩
    · have := (hmn n0).mpr hn0'
      rw [hcol] at this
      simp at this
    · rw [hcol] at hm
      simp [minimum] at hm
  · obtain ⟨h1, h2⟩ := minimum_eq m hm
    refine ⟨m, ⟨(hmn m).mp h1, fun x hx => h2 x ((hmn x).mpr hx)⟩, ?_⟩
    unfold initializeSplines
    simp only [e1, e2, hm]
    rw [if_pos ⟨hlen, hn.1, hr.1⟩]
    rfl

theorem reshaped_fit (fit : ℝ → ℝ → List ℝ) (ngrid rgrid : List ℝ) (k l : Nat) (n r : ℝ)
    (hk : ngrid[k]? = some n) (hl : rgrid[l]? = some r) (i : Nat) :
    reshaped (fitProfiles fit ngrid rgrid) rgrid.length i k l = ((normalised (fit n r))[i]?).getD 0 := by
  unfold reshaped fitProfiles
  rw [List.getElem?_map, product_getElem? ngrid rgrid k l n r hk hl]
  rfl

/-- C120 (nodes). With increasing grids, the table written for the fits is read without an error, and a galaxy
with the Sersic index and half-light radius of a fit has the amplitudes of that fit, scaled to sum to one. -/
theorem C120_nodes_partial (L : Lib) (hL : L.Good) (fit : ℝ → ℝ → List ℝ) (radii ngrid rgrid : List ℝ)
    (hfit : ∀ n ∈ ngrid, ∀ r ∈ rgrid, (fit n r).length = radii.length)
    (hn : Grid ngrid) (hr : Grid rgrid)
    (hpos : ∀ r ∈ rgrid, 0 ≤ r) :
    ∃ s, initializeSplines radii radii.length (fitProfiles fit ngrid rgrid) = some s ∧ s.radii = radii ∧
      ∀ n ∈ ngrid, ∀ r ∈ rgrid,
        amplitudes L s n r = (fit n r).map fun p => Real.exp p / ((fit n r).map Real.exp).sum := by
  obtain ⟨m, ⟨-, hm⟩, hi⟩ := initialize_fit fit radii ngrid rgrid hn hr
  refine ⟨_, hi, rfl, ?_⟩
  intro n hnm r hrm
  obtain ⟨k, hk⟩ := List.mem_iff_getElem?.mp hnm
  obtain ⟨l, hl⟩ := List.mem_iff_getElem?.mp hrm
  unfold amplitudes
  rw [if_neg (not_lt.mpr (hm n hnm)), if_neg (not_lt.mpr (hpos r hrm))]
  apply List.ext_getElem?
  intro i
  have hlen := hfit n hnm r hrm
  rw [List.getElem?_map]
  rcases Nat.lt_or_ge i radii.length with h | h
  · rw [List.getElem?_range h]
    simp only [Option.map_some]
    rw [hL.node ngrid rgrid hn hr _ k l n r hk hl, reshaped_fit fit ngrid rgrid k l n r hk hl]
    rw [← hlen] at h
    simp [normalised, h]
  · rw [List.getElem?_eq_none (by simpa using h), List.getElem?_map, List.getElem?_eq_none (by omega)]
    rfl

theorem additive_sum {f : List ℝ → List ℝ → (Nat → Nat → ℝ) → ℝ → ℝ → ℝ} (hf : Additive f) {xs ys : List ℝ}
    (hx : Grid xs) (hy : Grid ys) (g : Nat → Nat → Nat → ℝ) (x y : ℝ) (is : List Nat)
    (h0 : f xs ys (fun _ _ => 0) x y = 0) :
    (is.map fun i => f xs ys (g i) x y).sum = f xs ys (fun k l => (is.map fun i => g i k l).sum) x y := by
  induction is with
  | nil => simp [h0]
  | cons i is ih =>
    simp only [List.map_cons, List.sum_cons]
    rw [ih, hf.add xs ys hx hy]

theorem oneHot_sum (m i : Nat) (h : i < m) : (oneHot m i).sum = 1 := by
  unfold oneHot
  induction m generalizing i with
  | zero => omega
  | succ m ih =>
    cases i with
    | zero => simp [List.replicate_succ]
    | succ i =>
      rw [List.replicate_succ, List.set_cons_succ, List.sum_cons, ih i (by omega), zero_add]

theorem argmin_lt (l : List ℝ) (h : l ≠ []) : argmin l < l.length := by
  induction l with
  | nil => exact absurd rfl h
  | cons x xs ih =>
    rw [argmin]
    split
    · simp
    · next hne =>
      have : xs ≠ [] := by
        rintro rfl
        exact hne (by simp)
      have := ih this
      simp
      exact this

/-- C120 (flux). For every Sersic index and half-light radius, also outside the grid, the amplitudes sum to one, so
that the flux of a galaxy is its flux parameter; their derivatives sum to zero. -/
theorem C120_flux (L : Lib) (hL : L.Good) (fit : ℝ → ℝ → List ℝ) (radii ngrid rgrid : List ℝ)
    (hfit : ∀ n ∈ ngrid, ∀ r ∈ rgrid, (fit n r).length = radii.length) (hrad : radii ≠ [])
    (hn : Grid ngrid) (hr : Grid rgrid) :
    ∃ s, initializeSplines radii radii.length (fitProfiles fit ngrid rgrid) = some s ∧ ∀ n r,
      (amplitudes L s n r).sum = 1 ∧ (damplitudeDsersic L s n r).sum = 0 ∧ (damplitudeDrh L s n r).sum = 0 := by
  obtain ⟨m, -, hi⟩ := initialize_fit fit radii ngrid rgrid hn hr
  refine ⟨_, hi, ?_⟩
  have hrl : 0 < radii.length := List.length_pos_iff.mpr hrad
  have hrow : ∀ k < ngrid.length, ∀ l < rgrid.length, ((List.range radii.length).map fun i =>
      reshaped (fitProfiles fit ngrid rgrid) rgrid.length i k l).sum = 1 := by
    intro k hk l hl
    have h1 := List.getElem?_eq_getElem hk
    have h2 := List.getElem?_eq_getElem hl
    have hlen := hfit _ (List.getElem_mem hk) _ (List.getElem_mem hl)
    have : ((List.range radii.length).map fun i =>
        reshaped (fitProfiles fit ngrid rgrid) rgrid.length i k l) = (List.range
          (normalised (fit ngrid[k] rgrid[l])).length).map fun i => ((normalised (fit ngrid[k] rgrid[l]))[i]?).getD 0 := by
      rw [show (normalised (fit ngrid[k] rgrid[l])).length = radii.length by simp [normalised, hlen]]
      exact List.map_congr_left fun i _ => reshaped_fit fit ngrid rgrid k l _ _ h1 h2 i
    rw [this, sum_range_getD]
    apply normalised_sum
    intro h0
    rw [h0] at hlen
    simp at hlen
    exact hrad (List.length_eq_zero_iff.mp hlen.symm)
  have hall : ∀ {f : List ℝ → List ℝ → (Nat → Nat → ℝ) → ℝ → ℝ → ℝ}, Additive f → ∀ n r,
      f ngrid rgrid (fun _ _ => 0) n r = 0 → ((List.range radii.length).map fun i =>
      f ngrid rgrid (reshaped (fitProfiles fit ngrid rgrid) rgrid.length i) n r).sum =
        f ngrid rgrid (fun _ _ => 1) n r := by
    intro f hf n r h0
    rw [additive_sum hf hn hr _ n r _ h0, hf.congr ngrid rgrid hn hr _ (fun _ _ => 1) hrow]
  intro n r
  refine ⟨?_, ?_, ?_⟩
  · unfold amplitudes
    dsimp only
    split
    · apply oneHot_sum
      have := argmin_lt (radii.map fun x => |r - x|) (by simpa using hrad)
      simpa using this
    · split
      · exact oneHot_sum _ _ hrl
      · exact (hall hL.value n r (hL.const _ _ hn hr 0 n r).1).trans (hL.const _ _ hn hr 1 n r).1
  · unfold damplitudeDsersic
    dsimp only
    split
    · simp
    · exact (hall hL.dx n r (hL.const _ _ hn hr 0 n r).2.1).trans (hL.const _ _ hn hr 1 n r).2.1
  · unfold damplitudeDrh
    dsimp only
    split
    · simp
    · exact (hall hL.dy n r (hL.const _ _ hn hr 0 n r).2.2).trans (hL.const _ _ hn hr 1 n r).2.2

theorem unique_sorted (l : List ℝ) : (unique l).Pairwise (· < ·) := by
  have h1 : (unique l).Pairwise (· ≤ ·) := List.pairwise_insertionSort (· ≤ ·) _
  have h2 : (unique l).Nodup := (List.perm_insertionSort _ _).nodup_iff.mpr (List.nodup_dedup l)
  exact (h1.and h2).imp fun h => lt_of_le_of_ne h.1 h.2

theorem mem_unique (l : List ℝ) (x : ℝ) : x ∈ unique l ↔ x ∈ l := by
  rw [unique, List.mem_insertionSort, List.mem_dedup]

theorem initialize_facts {radii : List ℝ} {table : List Entry} {g : Nat} {s : Splines}
    (hs : initializeSplines radii g table = some s) :
    s.radii = radii ∧ s.ngauss = g ∧ Grid s.ngrid ∧ Grid s.rgrid ∧ (∀ x, x ∈ s.ngrid ↔ ∃ e ∈ table, e.n = x) ∧
      (∀ x, x ∈ s.rgrid ↔ ∃ e ∈ table, e.r = x) ∧ (∃ e ∈ table, e.n = s.sersicMin) ∧
      ∀ e ∈ table, s.sersicMin ≤ e.n := by
  unfold initializeSplines at hs
  dsimp only at hs
  split at hs
  · next hc =>
    obtain ⟨m, hm, rfl⟩ := Option.map_eq_some_iff.mp hs
    obtain ⟨h1, h2⟩ := minimum_eq m hm
    refine ⟨rfl, rfl, ⟨hc.2.1, unique_sorted _⟩, ⟨hc.2.2, unique_sorted _⟩, ?_, ?_, ?_, ?_⟩
    · intro x
      rw [mem_unique, List.mem_map]
    · intro x
      rw [mem_unique, List.mem_map]
    · exact List.mem_map.mp h1
    · intro e he
      exact h2 _ (List.mem_map.mpr ⟨e, he, rfl⟩)
  · simp at hs

/-- C120 (gradients). For every radius inside the table and for negative ones: the amplitude of every gaussian has
the reported derivative by Sersic index when the index is inside the table or below it, and the reported derivative by
radius for every index from the least of the table on.  At the least index (in the direction of the index) and at
radius zero the amplitudes may jump; for the derivative by radius below the table see `C120_gradient_refuted`. -/
theorem C120_gradient_partial (L : Lib) (hL : L.Good) (table : List Entry) (radii : List ℝ) (s : Splines)
    (hs : initializeSplines radii radii.length table = some s) (i : Nat) (hi : i < radii.length) (n r : ℝ)
    (hr : r < 0 ∨ (0 < r ∧ (∃ e ∈ table, e.r < r) ∧ ∃ e ∈ table, r < e.r)) :
    ((∀ e ∈ table, n < e.n) ∨ ((∃ e ∈ table, e.n < n) ∧ ∃ e ∈ table, n < e.n) →
      HasDerivAt (fun t => ((amplitudes L s t r)[i]?).getD 0) (((damplitudeDsersic L s n r)[i]?).getD 0) n) ∧
    ((∃ e ∈ table, e.n ≤ n) →
      HasDerivAt (fun t => ((amplitudes L s n t)[i]?).getD 0) (((damplitudeDrh L s n r)[i]?).getD 0) r) := by
  obtain ⟨hR, hG, gN, gR, mN, mR, ⟨e0, he0, hm0⟩, hmin⟩ := initialize_facts hs
  have hir : i < s.radii.length := by rw [hR]; exact hi
  have hig : i < s.ngauss := by rw [hG]; exact hi
  have hz : ((List.replicate s.radii.length (0 : ℝ))[i]?).getD 0 = 0 := by
    rw [List.getElem?_replicate, if_pos hir]
    rfl
  have hin : ∀ a b, s.sersicMin ≤ a → 0 ≤ b →
      ((amplitudes L s a b)[i]?).getD 0 = L.value s.ngrid s.rgrid (s.grid i) a b := by
    intro a b ha hb
    rw [amplitudes, if_neg (not_lt.mpr ha), if_neg (not_lt.mpr hb), List.getElem?_map, List.getElem?_range hig]
    rfl
  have hwn : ((∃ e ∈ table, e.n < n) ∧ ∃ e ∈ table, n < e.n) → s.sersicMin < n ∧ Within s.ngrid n := by
    rintro ⟨⟨e1, h1, h1'⟩, ⟨e2, h2, h2'⟩⟩
    exact ⟨lt_of_le_of_lt (hmin e1 h1) h1', ⟨e1.n, (mN _).mpr ⟨e1, h1, rfl⟩, h1'⟩, ⟨e2.n, (mN _).mpr ⟨e2, h2, rfl⟩, h2'⟩⟩
  constructor
  · rintro (h | h)
    · -- below the table
      have h' : n < s.sersicMin := hm0 ▸ h e0 he0
      have e1 : ((damplitudeDsersic L s n r)[i]?).getD 0 = 0 := by
        rw [damplitudeDsersic, if_pos (Or.inl h'), hz]
      rw [e1]
      refine (hasDerivAt_const n (((amplitudes L s n r)[i]?).getD 0)).congr_of_eventuallyEq ?_
      filter_upwards [Iio_mem_nhds h'] with t ht
      rw [amplitudes, amplitudes, if_pos (Set.mem_Iio.mp ht), if_pos h']
    · obtain ⟨h1, h2⟩ := hwn h
      rcases hr with h0 | ⟨h0, -, -⟩
      · have e1 : ((damplitudeDsersic L s n r)[i]?).getD 0 = 0 := by
          rw [damplitudeDsersic, if_pos (Or.inr h0), hz]
        rw [e1]
        refine (hasDerivAt_const n (((amplitudes L s n r)[i]?).getD 0)).congr_of_eventuallyEq ?_
        filter_upwards [Ioi_mem_nhds h1] with t ht
        rw [amplitudes, amplitudes, if_neg (not_lt.mpr (le_of_lt (Set.mem_Ioi.mp ht))), if_neg (not_lt.mpr h1.le),
          if_pos h0, if_pos h0]
      · have e1 : ((damplitudeDsersic L s n r)[i]?).getD 0 = L.dx s.ngrid s.rgrid (s.grid i) n r := by
          rw [damplitudeDsersic, if_neg (by rintro (h' | h') <;> linarith), List.getElem?_map, List.getElem?_range hig]
          rfl
        rw [e1]
        refine (hL.hasDx s.ngrid s.rgrid gN gR (s.grid i) n r h2).congr_of_eventuallyEq ?_
        filter_upwards [Ioi_mem_nhds h1] with t ht
        exact hin t r (le_of_lt (Set.mem_Ioi.mp ht)) h0.le
  · rintro ⟨e5, h5, h5'⟩
    have h1 : s.sersicMin ≤ n := (hmin e5 h5).trans h5'
    rcases hr with h0 | ⟨h0, ⟨e3, h3, h3'⟩, ⟨e4, h4, h4'⟩⟩
    · have e1 : ((damplitudeDrh L s n r)[i]?).getD 0 = 0 := by
        rw [damplitudeDrh, if_pos (Or.inr h0), hz]
      rw [e1]
      refine (hasDerivAt_const r (((amplitudes L s n r)[i]?).getD 0)).congr_of_eventuallyEq ?_
      filter_upwards [Iio_mem_nhds h0] with t ht
      rw [amplitudes, amplitudes, if_neg (not_lt.mpr h1), if_neg (not_lt.mpr h1), if_pos (Set.mem_Iio.mp ht),
        if_pos h0]
    · have e1 : ((damplitudeDrh L s n r)[i]?).getD 0 = L.dy s.ngrid s.rgrid (s.grid i) n r := by
        rw [damplitudeDrh, if_neg (by rintro (h' | h') <;> linarith), List.getElem?_map, List.getElem?_range hig]
        rfl
      rw [e1]
      refine (hL.hasDy s.ngrid s.rgrid gN gR (s.grid i) n r ⟨⟨e3.r, (mR _).mpr ⟨e3, h3, rfl⟩, h3'⟩,
        ⟨e4.r, (mR _).mpr ⟨e4, h4, rfl⟩, h4'⟩⟩).congr_of_eventuallyEq ?_
      filter_upwards [Ioi_mem_nhds h0] with t ht
      exact hin n t h1 (le_of_lt (Set.mem_Ioi.mp ht))

theorem argmin_spec (l : List ℝ) (h : l ≠ []) : ∃ x, l[argmin l]? = some x ∧ ∀ y ∈ l, x ≤ y := by
  induction l with
  | nil => exact absurd rfl h
  | cons a l ih =>
    rw [argmin]
    split
    · next hall =>
      refine ⟨a, rfl, ?_⟩
      intro y hy
      rcases List.mem_cons.mp hy with rfl | hy
      · exact le_refl _
      · exact hall y hy
    · next hne =>
      have hl : l ≠ [] := by
        rintro rfl
        exact hne (by simp)
      obtain ⟨x, hx, hle⟩ := ih hl
      refine ⟨x, by simpa using hx, ?_⟩
      intro y hy
      rcases List.mem_cons.mp hy with rfl | hy
      · push Not at hne
        obtain ⟨z, hz, hlt⟩ := hne
        exact (hle z hz).trans hlt.le
      · exact hle y hy

theorem oneHot_get (m j i : Nat) (hi : i < m) : (oneHot m j)[i]? = some (if i = j then 1 else 0) := by
  unfold oneHot
  rw [List.getElem?_set]
  by_cases h : j = i
  · subst h
    simp [hi]
  · simp [h, Ne.symm h, hi]


/-- C120 (the jump). Below the table all of the flux is in the gaussian of which the radius is the nearest. -/
theorem C120_below (L : Lib) (table : List Entry) (radii : List ℝ) (s : Splines)
    (hs : initializeSplines radii radii.length table = some s) (hrad : radii ≠ []) (n r : ℝ)
    (hn : ∀ e ∈ table, n < e.n) :
    ∃ j, ∃ x, radii[j]? = some x ∧ (∀ y ∈ radii, |r - x| ≤ |r - y|) ∧
      ∀ i < radii.length, (amplitudes L s n r)[i]? = some (if i = j then 1 else 0) := by
  obtain ⟨hR, -, -, -, -, -, ⟨e0, he0, hm0⟩, -⟩ := initialize_facts hs
  have h' : n < s.sersicMin := hm0 ▸ hn e0 he0
  obtain ⟨v, hv, hle⟩ := argmin_spec (radii.map fun x => |r - x|) (by simpa using hrad)
  rw [List.getElem?_map] at hv
  obtain ⟨x, hx, rfl⟩ := Option.map_eq_some_iff.mp hv
  refine ⟨_, x, hx, ?_, ?_⟩
  · intro y hy
    exact hle _ (List.mem_map.mpr ⟨y, hy, rfl⟩)
  · intro i hi
    rw [amplitudes, if_pos h', hR]
    exact oneHot_get _ _ _ hi

/-- C120 (negative radii). All of the flux is in the first gaussian. -/
theorem C120_negative (L : Lib) (table : List Entry) (radii : List ℝ) (s : Splines)
    (hs : initializeSplines radii radii.length table = some s) (n r : ℝ)
    (hn : ∃ e ∈ table, e.n ≤ n) (hr : r < 0) :
    ∀ i < radii.length, (amplitudes L s n r)[i]? = some (if i = 0 then 1 else 0) := by
  obtain ⟨hR, -, -, -, -, -, -, hmin⟩ := initialize_facts hs
  obtain ⟨e, he, hen⟩ := hn
  intro i hi
  rw [amplitudes, if_neg (not_lt.mpr ((hmin e he).trans hen)), if_pos hr, hR]
  exact oneHot_get _ _ _ hi

/-! ## Where it fails -/

/-- Fits that depend on the radius: at radius 1 the amplitudes are 3/4 and 1/4, elsewhere they are equal. -/
noncomputable def exFit : ℝ → ℝ → List ℝ := fun _ r => if r = 1 then [Real.log 3, 0] else [0, 0]

/-- Sersic indices of the example, increasing. -/
def exN : List ℝ := [1, 2, 3, 4]

/-- Radii of the example, decreasing. -/
def exR : List ℝ := [4, 3, 2, 1]

theorem exGrid : Grid exN := by
  refine ⟨by simp [exN], ?_⟩
  simp [exN]
  norm_num

theorem ex_unique : unique ((fitProfiles exFit exN exR).map Entry.n) = exN ∧
    unique ((fitProfiles exFit exN exR).map Entry.r) = exN := by
  constructor
  · apply unique_eq exGrid.2
    intro x
    simp only [fitProfiles, List.map_map, List.mem_map, Function.comp_apply, Prod.exists]
    constructor
    · rintro ⟨a, b, h, rfl⟩
      exact (List.pair_mem_product.mp h).1
    · intro hx
      exact ⟨x, 4, List.pair_mem_product.mpr ⟨hx, by simp [exR]⟩, rfl⟩
  · apply unique_eq exGrid.2
    intro x
    simp only [fitProfiles, List.map_map, List.mem_map, Function.comp_apply, Prod.exists]
    have hm : x ∈ exR ↔ x ∈ exN := by
      simp [exR, exN]
      tauto
    constructor
    · rintro ⟨a, b, h, rfl⟩
      exact hm.mp (List.pair_mem_product.mp h).2
    · intro hx
      exact ⟨1, x, List.pair_mem_product.mpr ⟨by simp [exN], hm.mpr hx⟩, rfl⟩

theorem ex_init (radii : List ℝ) : ∃ m, initializeSplines radii radii.length (fitProfiles exFit exN exR) =
    some ⟨radii, radii.length, exN, exN, reshaped (fitProfiles exFit exN exR) 4, m⟩ ∧ m ≤ 1 ∧ 1 ≤ m := by
  rcases hm : minimum ((fitProfiles exFit exN exR).map Entry.n) with _ | m
  · exfalso
    simp [fitProfiles, exN, exR, List.product, minimum] at hm
  · obtain ⟨h1, h2⟩ := minimum_eq m hm
    have hmem : ∀ x, x ∈ (fitProfiles exFit exN exR).map Entry.n ↔ x ∈ exN := by
      intro x
      rw [← mem_unique, ex_unique.1]
    refine ⟨m, ?_, h2 1 ((hmem 1).mpr (by simp [exN])), ?_⟩
    · unfold initializeSplines
      simp only [ex_unique.1, ex_unique.2, hm]
      rw [if_pos]
      · rfl
      · refine ⟨?_, exGrid.1, exGrid.1⟩
        exact fit_length exFit exN exR
    · have := (hmem m).mp h1
      simp only [exN, List.mem_cons, List.not_mem_nil, or_false] at this
      rcases this with rfl | rfl | rfl | rfl <;> norm_num

/-- C120 (refuted: any grid). With a grid in decreasing order the table is read without an error, but the amplitudes
go to the wrong galaxies: those fitted for radius 1 are used for radius 4. -/
theorem C120_nodes_refuted (L : Lib) (hL : L.Good) :
    ∃ s, initializeSplines [0, 1] 2 (fitProfiles exFit exN exR) = some s ∧
      exFit 1 4 = [0, 0] ∧ amplitudes L s 1 4 = [3 / 4, 1 / 4] := by
  obtain ⟨m, hi, hm1, hm2⟩ := ex_init [0, 1]
  refine ⟨_, hi, ?_, ?_⟩
  · simp [exFit]
  · have hv : ∀ i, L.value exN exN (reshaped (fitProfiles exFit exN exR) 4 i) 1 4 =
        ((normalised (exFit 1 1))[i]?).getD 0 := by
      intro i
      rw [hL.node exN exN exGrid exGrid _ 0 3 1 4 rfl rfl]
      exact reshaped_fit exFit exN exR 0 3 1 1 rfl rfl i
    have h3 : Real.exp (Real.log 3) = 3 := Real.exp_log (by norm_num)
    simp only [amplitudes, if_neg (not_lt.mpr hm1), if_neg (not_lt.mpr (by norm_num : (0 : ℝ) ≤ 4)), hv]
    simp [List.range_succ, exFit, normalised, h3]
    norm_num

/-- C120 (refuted: repeated values). A grid that has a value twice gives a table that cannot be read. -/
theorem C120_repeated_refuted (fit : ℝ → ℝ → List ℝ) (radii ngrid rgrid : List ℝ) (hn : ngrid ≠ [])
    (hr : ¬rgrid.Nodup) : initializeSplines radii radii.length (fitProfiles fit ngrid rgrid) = none := by
  have hr0 : rgrid ≠ [] := by
    rintro rfl
    exact hr List.nodup_nil
  obtain ⟨n0, hn0'⟩ := List.exists_mem_of_ne_nil _ hn
  obtain ⟨r0, hr0'⟩ := List.exists_mem_of_ne_nil _ hr0
  have hlt : (unique ((fitProfiles fit ngrid rgrid).map Entry.r)).length < rgrid.length := by
    have hp : (unique ((fitProfiles fit ngrid rgrid).map Entry.r)).Perm rgrid.dedup := by
      rw [List.perm_ext_iff_of_nodup ((unique_sorted _).imp fun h => ne_of_lt h) (List.nodup_dedup _)]
      intro x
      rw [mem_unique, List.mem_dedup]
      simp only [fitProfiles, List.map_map, List.mem_map, Function.comp_apply, Prod.exists]
      constructor
      · rintro ⟨a, b, h, rfl⟩
        exact (List.pair_mem_product.mp h).2
      · intro hx
        exact ⟨n0, x, List.pair_mem_product.mpr ⟨hn0', hx⟩, rfl⟩
    rw [hp.length_eq]
    refine lt_of_le_of_ne (List.dedup_sublist rgrid).length_le ?_
    intro h
    exact hr (List.dedup_eq_self.mp ((List.dedup_sublist rgrid).eq_of_length h))
  have hle : (unique ((fitProfiles fit ngrid rgrid).map Entry.n)).length ≤ ngrid.length := by
    have hsub : (unique ((fitProfiles fit ngrid rgrid).map Entry.n)).Subperm ngrid := by
      apply List.Nodup.subperm ((unique_sorted _).imp fun h => ne_of_lt h)
      intro x hx
      rw [mem_unique] at hx
      simp only [fitProfiles, List.map_map, List.mem_map, Function.comp_apply, Prod.exists] at hx
      obtain ⟨a, b, h, rfl⟩ := hx
      exact (List.pair_mem_product.mp h).1
    exact hsub.length_le
  unfold initializeSplines
  dsimp only
  rw [if_neg]
  rintro ⟨h, -, -⟩
  rw [fit_length] at h
  have hnpos : 0 < ngrid.length := List.length_pos_iff.mpr hn
  have h1 : (unique ((fitProfiles fit ngrid rgrid).map Entry.n)).length *
      (unique ((fitProfiles fit ngrid rgrid).map Entry.r)).length ≤
      ngrid.length * (unique ((fitProfiles fit ngrid rgrid).map Entry.r)).length := Nat.mul_le_mul_right _ hle
  have h2 : ngrid.length * (unique ((fitProfiles fit ngrid rgrid).map Entry.r)).length <
      ngrid.length * rgrid.length := Nat.mul_lt_mul_of_pos_left hlt hnpos
  omega

/-- C120 (refuted: gradients everywhere). Below the table the reported derivative by radius is zero, also where the
amplitudes jump from one gaussian to the next. -/
theorem C120_gradient_refuted (L : Lib) :
    ∃ s, initializeSplines [0, 2] 2 (fitProfiles exFit exN exR) = some s ∧
      damplitudeDrh L s 0 1 = [0, 0] ∧ ¬ContinuousAt (fun t => ((amplitudes L s 0 t)[0]?).getD 0) 1 := by
  obtain ⟨m, hi, hm1, hm2⟩ := ex_init [0, 2]
  refine ⟨_, hi, ?_, ?_⟩
  · rw [damplitudeDrh, if_pos (Or.inl (by dsimp only; linarith))]
    rfl
  · intro hc
    have hval : ∀ t : ℝ, ((amplitudes L ⟨[0, 2], [0, 2].length, exN, exN, reshaped (fitProfiles exFit exN exR) 4, m⟩
        0 t)[0]?).getD 0 = if |t| ≤ |t - 2| then 1 else 0 := by
      intro t
      rw [amplitudes, if_pos (by dsimp only; linarith)]
      by_cases h : |t| ≤ |t - 2|
      · simp [argmin, h, oneHot]
      · simp [argmin, h, oneHot]
    have hc1 := hc.tendsto
    simp only [List.length_cons, List.length_nil] at hval hc1
    simp only [hval] at hc1
    rw [if_pos (by norm_num)] at hc1
    have hev := hc1.eventually (Ioi_mem_nhds (show (1 / 2 : ℝ) < 1 by norm_num))
    obtain ⟨ε, hε, hball⟩ := Metric.eventually_nhds_iff.mp hev
    have hm := hball (y := 1 + min (ε / 2) (1 / 2)) (by
      rw [Real.dist_eq, add_sub_cancel_left, abs_of_pos (by positivity)]
      exact lt_of_le_of_lt (min_le_left _ _) (by linarith))
    have hp : 0 < min (ε / 2) (1 / 2) := by positivity
    have hq : min (ε / 2) (1 / 2) ≤ 1 / 2 := min_le_right _ _
    rw [if_neg] at hm
    · simp at hm
      linarith
    · rw [abs_of_pos (by linarith), abs_of_neg (by linarith)]
      linarith

/-! ## There are splines as assumed -/

/-- The Lagrange polynomial of node `k`. -/
noncomputable def lag (xs : List ℝ) (k : Nat) : Polynomial ℝ :=
  Lagrange.basis (Finset.range xs.length) (fun j => xs.getD j 0) k

/-- Polynomial interpolation on the grid. -/
noncomputable def lagrange : Lib where
  value xs ys z x y := ∑ k ∈ Finset.range xs.length, ∑ l ∈ Finset.range ys.length,
    z k l * ((lag xs k).eval x * (lag ys l).eval y)
  dx xs ys z x y := ∑ k ∈ Finset.range xs.length, ∑ l ∈ Finset.range ys.length,
    z k l * ((lag xs k).derivative.eval x * (lag ys l).eval y)
  dy xs ys z x y := ∑ k ∈ Finset.range xs.length, ∑ l ∈ Finset.range ys.length,
    z k l * ((lag xs k).eval x * (lag ys l).derivative.eval y)

theorem grid_inj {xs : List ℝ} (h : Grid xs) : Set.InjOn (fun j => xs.getD j 0) (Finset.range xs.length : Set Nat) := by
  have hnd : xs.Nodup := h.2.imp fun h => ne_of_lt h
  intro i hi j hj hij
  simp only [Finset.coe_range, Set.mem_Iio] at hi hj
  simp only [List.getD_eq_getElem _ _ hi, List.getD_eq_getElem _ _ hj] at hij
  exact (List.Nodup.getElem_inj_iff hnd).mp hij

theorem lag_sum {xs : List ℝ} (h : Grid xs) : ∑ k ∈ Finset.range xs.length, lag xs k = 1 :=
  Lagrange.sum_basis (v := fun j => xs.getD j 0) (grid_inj h) (Finset.nonempty_range_iff.mpr (by have := h.1; omega))

theorem lag_node {xs : List ℝ} (h : Grid xs) (k j : Nat) (x : ℝ) (hk : xs[k]? = some x) (hj : j < xs.length) :
    (lag xs j).eval x = if j = k then 1 else 0 := by
  obtain ⟨hkl, rfl⟩ := List.getElem?_eq_some_iff.mp hk
  have hx : xs[k] = (fun j => xs.getD j 0) k := (List.getD_eq_getElem xs 0 hkl).symm
  rw [hx]
  unfold lag
  split
  · next e =>
    subst e
    exact Lagrange.eval_basis_self (v := fun j => xs.getD j 0) (grid_inj h) (Finset.mem_range.mpr hj)
  · next e => exact Lagrange.eval_basis_of_ne (v := fun j => xs.getD j 0) e (Finset.mem_range.mpr hkl)

theorem additive_sumform (b c : List ℝ → Nat → ℝ → ℝ) : Additive fun xs ys z x y =>
    ∑ k ∈ Finset.range xs.length, ∑ l ∈ Finset.range ys.length, z k l * (b xs k x * c ys l y) where
  congr := by
    intro xs ys _ _ z w h
    funext x y
    refine Finset.sum_congr rfl fun k hk => Finset.sum_congr rfl fun l hl => ?_
    rw [h k (Finset.mem_range.mp hk) l (Finset.mem_range.mp hl)]
  add := by
    intro xs ys _ _ z w x y
    simp only [add_mul, Finset.sum_add_distrib]

theorem const_sumform (xs ys : List ℝ) (b c : Nat → ℝ) (v : ℝ) :
    ∑ k ∈ Finset.range xs.length, ∑ l ∈ Finset.range ys.length, v * (b k * c l) =
      v * ((∑ k ∈ Finset.range xs.length, b k) * ∑ l ∈ Finset.range ys.length, c l) := by
  rw [Finset.sum_mul_sum, Finset.mul_sum]
  exact Finset.sum_congr rfl fun k _ => (Finset.mul_sum _ _ _).symm

theorem lagrange_good : lagrange.Good where
  value := additive_sumform (fun xs k x => (lag xs k).eval x) (fun ys l y => (lag ys l).eval y)
  dx := additive_sumform (fun xs k x => (lag xs k).derivative.eval x) (fun ys l y => (lag ys l).eval y)
  dy := additive_sumform (fun xs k x => (lag xs k).eval x) (fun ys l y => (lag ys l).derivative.eval y)
  node := by
    intro xs ys hx hy z k l x y hk hl
    have hkl : k < xs.length := (List.getElem?_eq_some_iff.mp hk).1
    have hll : l < ys.length := (List.getElem?_eq_some_iff.mp hl).1
    show ∑ k ∈ Finset.range xs.length, ∑ l ∈ Finset.range ys.length, _ = _
    rw [Finset.sum_eq_single k, Finset.sum_eq_single l]
    · rw [lag_node hx k k x hk hkl, lag_node hy l l y hl hll]
      simp
    · intro b hb hne
      rw [lag_node hy l b y hl (Finset.mem_range.mp hb), if_neg hne]
      simp
    · intro h
      exact absurd (Finset.mem_range.mpr hll) h
    · intro a ha hne
      rw [lag_node hx k a x hk (Finset.mem_range.mp ha), if_neg hne]
      simp
    · intro h
      exact absurd (Finset.mem_range.mpr hkl) h
  const := by
    intro xs ys hx hy c x y
    have hsx : ∑ k ∈ Finset.range xs.length, (lag xs k).eval x = 1 := by
      rw [← Polynomial.eval_finsetSum, lag_sum hx, Polynomial.eval_one]
    have hsy : ∑ k ∈ Finset.range ys.length, (lag ys k).eval y = 1 := by
      rw [← Polynomial.eval_finsetSum, lag_sum hy, Polynomial.eval_one]
    have hdx : ∑ k ∈ Finset.range xs.length, (lag xs k).derivative.eval x = 0 := by
      rw [← Polynomial.eval_finsetSum, ← Polynomial.derivative_sum, lag_sum hx, Polynomial.derivative_one,
        Polynomial.eval_zero]
    have hdy : ∑ k ∈ Finset.range ys.length, (lag ys k).derivative.eval y = 0 := by
      rw [← Polynomial.eval_finsetSum, ← Polynomial.derivative_sum, lag_sum hy, Polynomial.derivative_one,
        Polynomial.eval_zero]
    refine ⟨?_, ?_, ?_⟩
    · exact (const_sumform xs ys (fun k => (lag xs k).eval x) (fun l => (lag ys l).eval y) c).trans (by
        rw [hsx, hsy]; ring)
    · exact (const_sumform xs ys (fun k => (lag xs k).derivative.eval x) (fun l => (lag ys l).eval y) c).trans (by
        rw [hdx]; ring)
    · exact (const_sumform xs ys (fun k => (lag xs k).eval x) (fun l => (lag ys l).derivative.eval y) c).trans (by
        rw [hdy]; ring)
  hasDx := by
    intro xs ys _ _ z x y _
    show HasDerivAt (fun t => ∑ k ∈ Finset.range xs.length, ∑ l ∈ Finset.range ys.length,
        z k l * ((lag xs k).eval t * (lag ys l).eval y)) (∑ k ∈ Finset.range xs.length, ∑ l ∈ Finset.range ys.length,
        z k l * ((lag xs k).derivative.eval x * (lag ys l).eval y)) x
    refine HasDerivAt.fun_sum fun k _ => HasDerivAt.fun_sum fun l _ => ?_
    exact (((lag xs k).hasDerivAt x).mul_const _).const_mul _
  hasDy := by
    intro xs ys _ _ z x y _
    show HasDerivAt (fun t => ∑ k ∈ Finset.range xs.length, ∑ l ∈ Finset.range ys.length,
        z k l * ((lag xs k).eval x * (lag ys l).eval t)) (∑ k ∈ Finset.range xs.length, ∑ l ∈ Finset.range ys.length,
        z k l * ((lag xs k).eval x * (lag ys l).derivative.eval y)) y
    refine HasDerivAt.fun_sum fun k _ => HasDerivAt.fun_sum fun l _ => ?_
    exact (((lag ys l).hasDerivAt y).const_mul _).const_mul _

/-- The hypotheses of `C120_nodes_partial`, `C120_flux` and `C120_gradient_partial` are met: four indices, four radii,
fits that differ with the radius. -/
example : lagrange.Good ∧ Grid exN ∧ (∀ n ∈ exN, ∀ r ∈ exN, (exFit n r).length = [(0 : ℝ), 1].length) ∧
    exFit 1 1 ≠ exFit 1 2 ∧ (∀ r ∈ exN, 0 ≤ r) ∧ Within exN (5 / 2) := by
  refine ⟨lagrange_good, exGrid, ?_, ?_, ?_, ⟨2, by simp [exN], by norm_num⟩, ⟨3, by simp [exN], by norm_num⟩⟩
  · intro n _ r _
    unfold exFit
    split <;> rfl
  · simp [exFit]
    norm_num
  · intro r hr
    simp only [exN, List.mem_cons, List.not_mem_nil, or_false] at hr
    rcases hr with rfl | rfl | rfl | rfl <;> norm_num

end Forcepho.Profile.Spline
