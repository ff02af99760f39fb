import Verif.Chain.Model
import Verif.Sources.Props
import Mathlib.Tactic.Ring
import Mathlib.Tactic.Linarith

/-! # C59, C60: chain catalogs and covariance blocks -/

set_option autoImplicit false
set_option linter.unusedSectionVars false

namespace Forcepho.Chain

variable {K : Type}

/-! ## C59 -/

lemma fillRow_notMem (chain : Arr2 K) (start : Nat) (cols : List String) : ∀ (j : Nat) (row : String → Nat → K)
    (c : String) (it : Nat), c ∉ cols → fillRow chain start cols j row c it = row c it := by
  induction cols with
  | nil => intros; rfl
  | cons col rest ih =>
    intro j row c it hc
    rw [List.mem_cons, not_or] at hc
    rw [fillRow, ih _ _ _ _ hc.2, if_neg hc.1]

lemma fillRow_get (chain : Arr2 K) (start : Nat) (cols : List String) : ∀ (j : Nat) (row : String → Nat → K)
    (i : Nat) (c : String) (it : Nat), cols.Nodup → cols[i]? = some c →
    fillRow chain start cols j row c it = chain.at_ it (start + j + i) := by
  induction cols with
  | nil => intro j row i c it _ h; simp at h
  | cons col rest ih =>
    intro j row i c it hn h
    obtain ⟨h1, h2⟩ := List.nodup_cons.mp hn
    rw [fillRow]
    cases i with
    | zero =>
      obtain rfl : col = c := by simpa using h
      rw [fillRow_notMem _ _ _ _ _ _ _ h1, if_pos rfl]; rfl
    | succ i =>
      rw [List.getElem?_cons_succ] at h
      rw [ih (j + 1) _ i c it h2 h]
      congr 1; omega

/-- The reference value added to a column. -/
def refOf [Zero K] (ref : K × K) (c : String) : K :=
  if c = "ra" then ref.1 else if c = "dec" then ref.2 else 0

/-- C59 (cells). The chain catalog has one row per source and the samples of a source's column are the
chain's values at that source's slot for the column, shifted by the reference for positions. -/
theorem C59_cells [AddGroup K] (chain : Arr2 K) (bands shapes : List String) (active : List Int) (ref : K × K)
    (cat : ChainCat K) (h : makeChaincat chain bands active ref shapes = some cat) :
    cat.nsource = active.length ∧ cat.niter = chain.nrow ∧
    active.length * (bands.length + shapes.length) = chain.ncol ∧
    (∀ (s : Nat) (x : Int), active[s]? = some x → cat.index s = x) ∧
    (∀ s < active.length, ∀ it < chain.nrow, ∀ (j : Nat) (c : String), (bands ++ shapes)[j]? = some c →
      s * (bands.length + shapes.length) + j < chain.ncol ∧
      cat.val s c it = chain.at_ it (s * (bands.length + shapes.length) + j) + refOf ref c) := by
  unfold makeChaincat at h
  simp only at h
  split at h
  · cases h
  rename_i h0
  split at h
  · cases h
  rename_i h1
  split at h
  · cases h
  rename_i h2
  split at h
  · cases h
  rename_i h3
  split at h
  · cases h
  obtain rfl := Option.some.inj h
  push Not at h1 h2 h3
  have hn : active.length * (bands.length + shapes.length) = chain.ncol := by
    rw [← h2]; exact Nat.div_mul_cancel (Nat.dvd_of_mod_eq_zero h1)
  refine ⟨h2, rfl, hn, ?_, ?_⟩
  · intro s x hs
    simp [List.getD_eq_getElem?_getD, hs]
  · intro s hs it _ j c hc
    have hj : j < bands.length + shapes.length := by
      obtain ⟨hj, -⟩ := List.getElem?_eq_some_iff.mp hc
      simpa using hj
    refine ⟨?_, ?_⟩
    · have : (s + 1) * (bands.length + shapes.length) ≤ chain.ncol := by
        rw [← hn]; exact Nat.mul_le_mul_right _ hs
      rw [Nat.succ_mul] at this; omega
    · have hf := fillRow_get chain (s * (bands.length + shapes.length)) (bands ++ shapes) 0 (fun _ _ => 0) j c it
        (List.nodup_cons.mp h3).2 hc
      rw [Nat.add_zero] at hf
      unfold addTo refOf
      by_cases hr : c = "ra"
      · subst hr; simp [hf]
      · by_cases hd : c = "dec"
        · subst hd; simp [hf]
        · simp [hr, hd, hf]

/-- C59 (rejections). It succeeds exactly when the chain has one slot per source and column, and the
columns are distinct, do not clash with the index column, and include the positions. -/
theorem C59_accepts [AddGroup K] (chain : Arr2 K) (bands shapes : List String) (active : List Int)
    (ref : K × K) :
    (makeChaincat chain bands active ref shapes).isSome ↔
      chain.ncol = active.length * (bands.length + shapes.length) ∧
      ("source_index" :: (bands ++ shapes)).Nodup ∧ "ra" ∈ bands ++ shapes ∧ "dec" ∈ bands ++ shapes := by
  constructor
  · intro h
    obtain ⟨cat, hc⟩ := Option.isSome_iff_exists.mp h
    refine ⟨(C59_cells chain bands shapes active ref cat hc).2.2.1.symm, ?_⟩
    unfold makeChaincat at hc
    simp only at hc
    split at hc
    · cases hc
    split at hc
    · cases hc
    split at hc
    · cases hc
    split at hc
    · cases hc
    rename_i h3
    split at hc
    · cases hc
    rename_i h4
    push Not at h3 h4
    exact ⟨h3, h4.1, h4.2⟩
  · rintro ⟨h1, h2, h3, h4⟩
    have hper : bands.length + shapes.length ≠ 0 := by
      rw [← List.length_append]
      intro h
      rw [List.length_eq_zero_iff] at h
      rw [h] at h3; cases h3
    unfold makeChaincat
    simp only
    rw [if_neg hper, if_neg (by rw [h1]; simp), if_neg (by
      rw [h1]; simp [Nat.mul_div_cancel _ (Nat.pos_of_ne_zero hper)]), if_neg (not_not.mpr h2),
      if_neg (by push Not; exact ⟨h3, h4⟩)]
    rfl

/-- C59 (scene). With the columns of the sources' class, the samples of source `s` at an iteration
are the parameters the source gets when the scene is set from that row of the chain, shifted by the
reference for positions. -/
theorem C59_scene [AddGroup K] (chain : Arr2 K) (c : Sources.Cls) (bands : List String) (active : List Int)
    (ref : K × K) (cat : ChainCat K) (sc : Sources.Scene K)
    (hcls : c ≠ .base) (hcols : Sources.shapeCols c = Sources.vecAttrs c)
    (hsc : ∀ s ∈ sc, s.WF ∧ s.cls = c ∧ s.filternames = bands ∧ s.fixed = false)
    (hlen : sc.length = active.length)
    (h : makeChaincat chain bands active ref ((Sources.shapeCols c).map Sources.Attr.name) = some cat)
    (it : Nat) (hit : it < chain.nrow) :
    ∃ sc', Sources.setAll sc ((List.range chain.ncol).map (chain.at_ it)) = (sc', none) ∧
      ∀ (i : Nat) (s : Sources.Source K), sc[i]? = some s → ∃ s', sc'[i]? = some s' ∧
        (∀ (b : Nat) (f : String), bands[b]? = some f → ∃ x, s'.flux[b]? = some x ∧
          cat.val i f it = x + refOf ref f) ∧
        ∀ a ∈ Sources.shapeCols c, cat.val i a.name it = s'.attr a + refOf ref a.name := by
  obtain ⟨-, -, g3, -, g5⟩ := C59_cells chain bands _ active ref cat h
  obtain ⟨per, hper⟩ : ∃ per, per = bands.length + ((Sources.shapeCols c).map Sources.Attr.name).length := ⟨_, rfl⟩
  rw [← hper] at g3
  simp only [← hper] at g5
  have hshape : 2 + Sources.nshape c = (Sources.shapeCols c).length := by
    cases c with
    | base => exact absurd rfl hcls
    | galaxy b => cases b <;> rfl
    | conformal b => cases b <;> rfl
    | _ => rfl
  have hnp : ∀ s ∈ sc, s.nParams = per := by
    intro s hs
    obtain ⟨-, h1, h2, -⟩ := hsc s hs
    unfold Sources.Source.nParams Sources.Source.nBands Sources.npos
    rw [h1, h2, hshape, hper, List.length_map]; omega
  have htot : ∀ l : Sources.Scene K, (∀ s ∈ l, s ∈ sc) → Sources.total l = l.length * per := by
    intro l
    induction l with
    | nil => intro _; simp [Sources.total]
    | cons s t ih =>
      intro hl
      have hm := hl s (by simp)
      rw [Sources.total_cons_active s t (hsc s hm).2.2.2, ih (fun x hx => hl x (by simp [hx])), hnp s hm,
        List.length_cons, Nat.succ_mul, Nat.add_comm]
  have hwf : ∀ s ∈ sc, s.WF ∧ s.cls ≠ .base := fun s hs => ⟨(hsc s hs).1, by rw [(hsc s hs).2.1]; exact hcls⟩
  obtain ⟨sc', hs1, hs2, hs3, -⟩ := (Sources.setAllFrom_spec ((List.range chain.ncol).map (chain.at_ it)) sc 0 hwf).1
    (by rw [htot sc (fun _ h => h), hlen, g3]; simp)
  refine ⟨sc', hs1, ?_⟩
  intro i s hi
  have hmem : s ∈ sc := List.mem_of_getElem? hi
  obtain ⟨hilt, -⟩ := List.getElem?_eq_some_iff.mp hi
  obtain ⟨s', h1, -, -, h4, h5, h6, -, h8⟩ := hs3 i s hi
  have hget := h8 (hsc s hmem).2.2.2
  rw [Sources.getParams_none] at hget
  have hvec := Except.ok.inj hget
  rw [htot (sc.take i) (fun _ h => List.mem_of_mem_take h), hnp s hmem, List.length_take, Nat.min_eq_left hilt.le,
    Nat.zero_add, h4, (hsc s hmem).2.1] at hvec
  have hfl : s'.flux.length = bands.length := by rw [h6, h5, (hsc s hmem).2.2.1]
  have hslice : ∀ j < per, ((((List.range chain.ncol).map (chain.at_ it)).drop (i * per)).take per)[j]? =
      some (chain.at_ it (i * per + j)) := by
    intro j hj
    have hlt : i * per + j < chain.ncol := by
      have : (i + 1) * per ≤ chain.ncol := by rw [← g3]; exact Nat.mul_le_mul_right _ (by omega)
      rw [Nat.succ_mul] at this; omega
    rw [List.getElem?_take_of_lt hj, List.getElem?_drop, List.getElem?_map, List.getElem?_range hlt]; rfl
  have hia : i < active.length := by omega
  refine ⟨s', h1, ?_, ?_⟩
  · intro b f hb
    obtain ⟨hblt, -⟩ := List.getElem?_eq_some_iff.mp hb
    have hv := hslice b (by omega)
    rw [← hvec, List.getElem?_append_left (by omega)] at hv
    refine ⟨_, hv, ?_⟩
    exact (g5 i hia it hit b f (by rw [List.getElem?_append_left hblt]; exact hb)).2
  · intro a ha
    obtain ⟨j, hj, rfl⟩ := List.mem_iff_getElem.mp ha
    have hjl : bands.length + j < per := by rw [hper, List.length_map]; omega
    have hv := hslice (bands.length + j) hjl
    rw [← hvec, List.getElem?_append_right (by omega), hfl, Nat.add_sub_cancel_left, List.getElem?_map, ← hcols,
      List.getElem?_eq_getElem hj] at hv
    have hv' := Option.some.inj hv
    rw [hv']
    refine (g5 i hia it hit (bands.length + j) _ ?_).2
    rw [List.getElem?_append_right (by omega), Nat.add_sub_cancel_left, List.getElem?_map, List.getElem?_eq_getElem hj]
    rfl

/-- C59 (samples). The sample catalog of an iteration (counted from the end when negative) holds the
chain catalog's value of that iteration in every column both have, the catalog's source indices, and
the old value in every other column. -/
theorem C59_sample (cat : ChainCat K) (it : Int) (active : Table K) (hrow : active.nrow = cat.nsource)
    (hlo : -(cat.niter : Int) ≤ it) (hhi : it < cat.niter) :
    ∃ out, getSampleCat cat it active = some out ∧ out.nrow = active.nrow ∧ out.names = active.names ∧
      (∀ s, out.index s = cat.index s) ∧
      (∀ s d, d ∈ active.names → d ∈ cat.names →
        out.at_ s d = cat.val s d (if 0 ≤ it then it.toNat else (it + cat.niter).toNat)) ∧
      (∀ s d, d ∈ active.names → d ∉ cat.names → out.at_ s d = active.at_ s d) := by
  have hpos : samplePos cat.nsource cat.niter it =
      some (if 0 ≤ it then it.toNat else (it + cat.niter).toNat) := by
    unfold samplePos pyIndex
    by_cases h0 : 0 ≤ it
    · rw [if_pos h0, if_pos hhi, if_pos h0]
    · rw [if_neg h0, if_pos (by omega), if_neg h0]
  unfold getSampleCat
  rw [if_neg (by simp [hrow]), hpos]
  split
  · refine ⟨_, rfl, rfl, rfl, fun _ => rfl, ?_, ?_⟩
    · intro s d _ hd; simp [hd]
    · intro s d _ hd; simp [hd]
  · rename_i hno
    refine ⟨_, rfl, rfl, rfl, fun _ => rfl, ?_, fun _ _ _ _ => rfl⟩
    intro s d hd hd'
    exfalso
    apply hno
    rw [List.any_eq_true]
    exact ⟨d, hd, by simpa using hd'⟩

/-- C59 (sample and chain). If the active catalog has all the chain's columns, the sample catalog of
an iteration, packed source by source in column order with the reference taken off, is that row of
the chain. -/
theorem C59_roundtrip [AddGroup K] (chain : Arr2 K) (bands shapes : List String) (indices : List Int)
    (ref : K × K) (cat : ChainCat K) (h : makeChaincat chain bands indices ref shapes = some cat)
    (active : Table K) (hrow : active.nrow = indices.length) (hcols : ∀ c ∈ bands ++ shapes, c ∈ active.names)
    (it : Nat) (hit : it < chain.nrow) :
    ∃ out, getSampleCat cat it active = some out ∧
      ((List.range out.nrow).flatMap fun s => (bands ++ shapes).map fun c => out.at_ s c - refOf ref c) =
        (List.range chain.ncol).map (chain.at_ it) := by
  obtain ⟨g1, g2, g3, -, g5⟩ := C59_cells chain bands shapes indices ref cat h
  have hnames : cat.names = bands ++ shapes := by
    unfold makeChaincat at h
    simp only at h
    split at h
    · cases h
    split at h
    · cases h
    split at h
    · cases h
    split at h
    · cases h
    split at h
    · cases h
    obtain rfl := Option.some.inj h
    rfl
  obtain ⟨out, ho, hr, -, -, hv, -⟩ := C59_sample cat it active (by rw [hrow, g1]) (by omega) (by omega)
  refine ⟨out, ho, ?_⟩
  rw [hr, hrow, ← g3]
  have hcell : ∀ s < indices.length, ((bands ++ shapes).map fun c => out.at_ s c - refOf ref c) =
      (List.range (bands.length + shapes.length)).map fun j =>
        chain.at_ it (s * (bands.length + shapes.length) + j) := by
    intro s hs
    apply List.ext_getElem?
    intro j
    rw [List.getElem?_map, List.getElem?_map]
    cases hc : (bands ++ shapes)[j]? with
    | none =>
      rw [List.getElem?_eq_none_iff, List.length_append] at hc
      rw [List.getElem?_eq_none (by simpa using hc)]; rfl
    | some c =>
      have hj : j < bands.length + shapes.length := by
        obtain ⟨hj, -⟩ := List.getElem?_eq_some_iff.mp hc
        simpa using hj
      have hmem : c ∈ bands ++ shapes := List.mem_of_getElem? hc
      rw [List.getElem?_range hj]
      simp only [Option.map_some]
      rw [hv s c (hcols c hmem) (by rw [hnames]; exact hmem), if_pos (by omega), Int.toNat_natCast,
        (g5 s hs it hit j c hc).2, add_sub_cancel_right]
  have hflat : ∀ n ≤ indices.length, ((List.range n).flatMap fun s =>
      (bands ++ shapes).map fun c => out.at_ s c - refOf ref c) =
      (List.range (n * (bands.length + shapes.length))).map (chain.at_ it) := by
    intro n
    induction n with
    | zero => intro _; simp
    | succ n ih =>
      intro hn
      rw [List.range_succ, List.flatMap_append, ih (by omega), Nat.succ_mul, List.range_add, List.map_append]
      simp only [List.flatMap_cons, List.flatMap_nil, List.append_nil]
      rw [hcell n (by omega), List.map_map]
      rfl
  exact hflat indices.length (le_refl _)

/-- C59, out of range: an iteration that does not exist is rejected, except that for one source with
one iteration the only sample is returned for any number. -/
theorem C59_out_of_range (cat : ChainCat K) (it : Int) (active : Table K) (hrow : active.nrow = cat.nsource)
    (hcol : ∃ d ∈ active.names, d ∈ cat.names) (hout : it < -(cat.niter : Int) ∨ (cat.niter : Int) ≤ it) :
    (¬ (cat.nsource = 1 ∧ cat.niter = 1) → getSampleCat cat it active = none) ∧
    (cat.nsource = 1 ∧ cat.niter = 1 → getSampleCat cat it active = getSampleCat cat 0 active) := by
  have hany : active.names.any (fun d => decide (d ∈ cat.names)) = true := by
    obtain ⟨d, h1, h2⟩ := hcol
    exact List.any_eq_true.mpr ⟨d, h1, by simpa using h2⟩
  have hnone : pyIndex cat.niter it = none := by
    unfold pyIndex
    by_cases h0 : 0 ≤ it
    · rw [if_pos h0, if_neg (by omega)]
    · rw [if_neg h0, if_neg (by omega)]
  unfold getSampleCat
  have hr : ¬ (active.nrow ≠ cat.nsource) := by simp [hrow]
  rw [if_neg hr, if_neg hr, if_pos hany, if_pos hany]
  constructor
  · intro h
    unfold samplePos
    rw [hnone]
    simp only [if_neg h, Option.map_none]
  · intro h
    unfold samplePos
    rw [hnone]
    have h1 : pyIndex cat.niter 0 = some 0 := by rw [h.2]; rfl
    rw [h1]
    simp only [if_pos h]

/-- Two sources, one band, three iterations. -/
example : (makeChaincat (K := ℤ) ⟨3, 6, fun it p => 10 * it + p⟩ ["F"] [7, 9] (100, 200) ["ra", "dec"]).map
    (fun c => (c.val 1 "F" 2, c.val 1 "ra" 2, c.val 1 "dec" 2, c.index 1)) = some (23, 124, 225, 9) := by
  decide +kernel

/-! ## C60 -/

lemma triple (m n : Nat) (f : Nat → Nat → Nat → Nat) {b r c : Nat} (hb : b < m) (hr : r < n) (hc : c < n) :
    ∃ blk row : _, ((List.range m).map fun b => (List.range n).map fun r => (List.range n).map fun c => f b r c)[b]? =
      some blk ∧ blk.length = n ∧ blk[r]? = some row ∧ row.length = n ∧ row[c]? = some (f b r c) := by
  refine ⟨(List.range n).map fun r => (List.range n).map fun c => f b r c, (List.range n).map fun c => f b r c,
    ?_, by simp, ?_, by simp, ?_⟩
  · rw [List.getElem?_map, List.getElem?_range hb]; rfl
  · rw [List.getElem?_map, List.getElem?_range hr]; rfl
  · rw [List.getElem?_map, List.getElem?_range hc]; rfl

/-- C60 (addresses). For a contiguous matrix, block `b` of the result reads, at `(r, c)`, the entry of
row `b n + r` and column `b n + c` of the matrix moved by `k` blocks along the rows or the columns;
the entry exists, and there are as many blocks as fit. -/
theorem C60_addresses (nrow ncol n : Nat) (k : Int) (hn : 0 < n) :
    ∃ out, extractBlockDiag (contiguous nrow ncol) n k = some out ∧
      out.length = min ((nrow - n * (-k).toNat) / n) ((ncol - n * k.toNat) / n) ∧
      ∀ b < out.length, ∀ r < n, ∀ c < n,
        b * n + r + n * (-k).toNat < nrow ∧ b * n + c + n * k.toNat < ncol ∧
        ∃ blk row : _, out[b]? = some blk ∧ blk.length = n ∧ blk[r]? = some row ∧ row.length = n ∧
          row[c]? = some ((b * n + r + n * (-k).toNat) * ncol + (b * n + c + n * k.toNat)) := by
  unfold extractBlockDiag
  rw [if_neg (by omega)]
  refine ⟨_, rfl, ?_, ?_⟩
  · rw [List.length_map, List.length_range]
    by_cases hk : 0 < k
    · have : (-k).toNat = 0 := by omega
      simp [if_pos hk, View.dropCols, contiguous, this]
    · have : k.toNat = 0 := by omega
      simp [if_neg hk, View.dropRows, contiguous, this]
  · intro b hb r hr c hc
    rw [List.length_map, List.length_range] at hb
    have key : ∀ m B : Nat, B < m / n → ∀ x < n, B * n + x < m := by
      intro m B hB x hx
      have : (B + 1) * n ≤ m := by
        calc (B + 1) * n ≤ (m / n) * n := Nat.mul_le_mul_right _ hB
          _ ≤ m := Nat.div_mul_le_self m n
      rw [Nat.succ_mul] at this; omega
    by_cases hk : 0 < k
    · have hz : (-k).toNat = 0 := by omega
      simp only [if_pos hk, View.dropCols, contiguous] at hb ⊢
      have hb' := lt_min_iff.mp hb
      have k1 := key _ _ hb'.1 r hr
      have k2 := key _ _ hb'.2 c hc
      refine ⟨by rw [hz]; omega, by omega, ?_⟩
      obtain ⟨blk, row, t1, t2, t3, t4, t5⟩ := triple _ n (fun b r c =>
        0 + min (n * k.toNat) ncol * 1 + b * (n * ncol + n * 1) + r * ncol + c * 1) hb hr hc
      refine ⟨blk, row, t1, t2, t3, t4, ?_⟩
      rw [t5, hz, Nat.min_eq_left (by omega)]
      congr 1; ring
    · have hz : k.toNat = 0 := by omega
      simp only [if_neg hk, View.dropRows, contiguous] at hb ⊢
      have hb' := lt_min_iff.mp hb
      have k1 := key _ _ hb'.1 r hr
      have k2 := key _ _ hb'.2 c hc
      refine ⟨by omega, by rw [hz]; omega, ?_⟩
      obtain ⟨blk, row, t1, t2, t3, t4, t5⟩ := triple _ n (fun b r c =>
        0 + min (n * (-k).toNat) nrow * ncol + b * (n * ncol + n * 1) + r * ncol + c * 1) hb hr hc
      refine ⟨blk, row, t1, t2, t3, t4, ?_⟩
      rw [t5, hz, Nat.min_eq_left (by omega)]
      congr 1; ring

/-- C60 (round trip). Extracting blocks of size `n` from the block diagonal matrix of `m` blocks of
that size returns the blocks. -/
theorem C60_roundtrip [Zero K] (n m : Nat) (hn : 0 < n) (blocks : Nat → Nat → Nat → K) :
    (extractBlockDiag (contiguous (m * n) (m * n)) n 0).map
      (fun out => out.map fun blk => blk.map fun row => row.map (buffer (m * n) (blockDiag n blocks))) =
    some ((List.range m).map fun b => (List.range n).map fun r => (List.range n).map fun c => blocks b r c) := by
  unfold extractBlockDiag
  rw [if_neg (by omega)]
  simp only [Option.map_some, lt_irrefl, if_false, View.dropRows, contiguous, neg_zero, Int.toNat_zero, Nat.mul_zero,
    Nat.zero_min, Nat.zero_mul, Nat.sub_zero, Nat.zero_add, Nat.mul_div_cancel _ hn, min_self, List.map_map]
  congr 1
  apply List.map_congr_left
  intro b hb
  simp only [Function.comp_apply, List.map_map]
  apply List.map_congr_left
  intro r hr
  simp only [Function.comp_apply, List.map_map]
  apply List.map_congr_left
  intro c hc
  rw [List.mem_range] at hb hr hc
  have hlt : b * n + c < m * n := by
    have : (b + 1) * n ≤ m * n := Nat.mul_le_mul_right _ hb
    rw [Nat.succ_mul] at this; omega
  have hN : 0 < m * n := by omega
  have e : b * (n * (m * n) + n * 1) + r * (m * n) + c * 1 = (b * n + c) + (b * n + r) * (m * n) := by ring
  simp only [Function.comp_apply]
  rw [e]
  unfold buffer blockDiag
  rw [Nat.add_mul_div_right _ _ hN, Nat.div_eq_of_lt hlt, Nat.zero_add, Nat.add_mul_mod_self_right,
    Nat.mod_eq_of_lt hlt]
  have d : ∀ x < n, (b * n + x) / n = b ∧ (b * n + x) % n = x := by
    intro x hx
    rw [Nat.add_comm]
    exact ⟨by rw [Nat.add_mul_div_right _ _ hn, Nat.div_eq_of_lt hx, Nat.zero_add],
      by rw [Nat.add_mul_mod_self_right, Nat.mod_eq_of_lt hx]⟩
  rw [(d r hr).1, (d c hc).1, if_pos rfl, (d r hr).2, (d c hc).2]

/-- C60, `n = 0` is rejected. -/
theorem C60_zero (v : View) (k : Int) : extractBlockDiag v 0 k = none := rfl

/-- C60, blocks of a size that does not divide the matrix: what does not fill a block is dropped. -/
example : extractBlockDiag (contiguous 5 5) 2 0 = some [[[0, 1], [5, 6]], [[12, 13], [17, 18]]] := by
  decide +kernel

end Forcepho.Chain
