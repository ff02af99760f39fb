import Verif.Postprocess.Catalogs
import Verif.Postprocess.ImageProps
import Verif.Bounds.Props
import Mathlib.LinearAlgebra.Matrix.PosDef
import Mathlib.Analysis.Matrix.PosDef
import Mathlib.Data.Real.StarOrdered

/-! # C66, C83, C84: catalogs made from the files of a run -/

set_option autoImplicit false
set_option linter.unusedSectionVars false

namespace Forcepho.Postprocess

variable {K : Type}

/-! ## C66 -/

/-- `r` are the last `n` elements of `l`. -/
def LastSamples (n : Nat) (l r : List K) : Prop := r.length = n ∧ ∃ pre, l = pre ++ r

/-- The row holds the samples of source number `t` of patch `p`, whose file is `s`. -/
def RowHolds (n : Nat) (params : List String) (row : SampleRow K) (k : Nat) (p : Int) (s : Patch K) (t : Nat) : Prop :=
  s.ids[t]? = some row.id ∧ row.sourceIndex = k ∧ row.patchId = p ∧ row.wall = s.wall ∧
  LastSamples n s.lnp row.lnp ∧
  ∀ col ∈ params, ∃ rows l, s.chain col = some rows ∧ rows[t]? = some l ∧ LastSamples n l (row.val col)

/-- The file has at least `n` samples everywhere. -/
def Enough (n : Nat) (s : Patch K) : Prop :=
  n ≤ s.lnp.length ∧ ∀ col rows, s.chain col = some rows → ∀ l ∈ rows, n ≤ l.length

/-- Source numbers are not negative. -/
def Proper (s : Patch K) : Prop := ∀ z ∈ s.index, 0 ≤ z

lemma lastN_spec (n : Nat) (hn : 0 < n) (l : List K) (h : n ≤ l.length) : LastSamples n l (lastN n l) := by
  unfold lastN LastSamples
  rw [if_neg (by omega)]
  refine ⟨by rw [List.length_drop]; omega, l.take (l.length - n), by simp⟩

lemma broadcast_last (n : Nat) (hn : 0 < n) (l r : List K) (h : n ≤ l.length)
    (hb : broadcast n (lastN n l) = some r) : LastSamples n l r := by
  have hs := lastN_spec n hn l h
  rw [broadcast_eq _ n hs.1] at hb
  obtain rfl : lastN n l = r := by simpa using hb
  exact hs

lemma cellOf_spec (n : Nat) (hn : 0 < n) (s : Patch K) (hs : Enough n s) (t : Nat) (col : String) (r : List K)
    (h : cellOf n s t col = .ok r) :
    ∃ rows l, s.chain col = some rows ∧ rows[t]? = some l ∧ LastSamples n l r := by
  unfold cellOf at h
  cases hc : s.chain col with
  | none => rw [hc] at h; simp at h
  | some rows =>
    rw [hc] at h
    dsimp only at h
    cases hl : rows[t]? with
    | none => rw [hl] at h; simp at h
    | some l =>
      rw [hl] at h
      dsimp only at h
      cases hb : broadcast n (lastN n l) with
      | none => rw [hb] at h; simp at h
      | some r' =>
        rw [hb] at h
        obtain rfl : r' = r := by injection h
        exact ⟨rows, l, rfl, hl, broadcast_last n hn l r' (hs.2 col rows hc l (List.mem_of_getElem? hl)) hb⟩

lemma colsOf_spec (n : Nat) (hn : 0 < n) (s : Patch K) (hs : Enough n s) (t : Nat) (cols : List String)
    (v v' : String → List K) (h : colsOf n s t cols v = .ok v') :
    (∀ col ∈ cols, ∃ rows l, s.chain col = some rows ∧ rows[t]? = some l ∧ LastSamples n l (v' col)) ∧
    ∀ col, col ∉ cols → v' col = v col := by
  induction cols generalizing v with
  | nil =>
    obtain rfl : v = v' := by simpa [colsOf] using h
    exact ⟨by simp, fun _ _ => rfl⟩
  | cons c cols ih =>
    rw [colsOf] at h
    cases hc : cellOf n s t c with
    | error x => rw [hc] at h; simp at h
    | ok r =>
      rw [hc] at h
      dsimp only at h
      obtain ⟨h1, h2⟩ := ih _ h
      refine ⟨?_, ?_⟩
      · intro col hcol
        by_cases hin : col ∈ cols
        · exact h1 col hin
        · obtain rfl : col = c := by
            rcases List.mem_cons.mp hcol with h | h
            · exact h
            · exact absurd h hin
          rw [h2 col hin, Function.update_self]
          exact cellOf_spec n hn s hs t col r hc
      · intro col hcol
        have hne : col ≠ c := fun h => hcol (h ▸ List.mem_cons_self)
        rw [h2 col fun h => hcol (List.mem_cons_of_mem _ h), Function.update_of_ne hne]

lemma rowOf_spec (n : Nat) (hn : 0 < n) (params : List String) (p : Int) (s : Patch K) (hs : Enough n s)
    (t k : Nat) (old row : SampleRow K) (h : rowOf n params p s t k old = .ok row) :
    RowHolds n params row k p s t := by
  unfold rowOf at h
  cases hi : s.ids[t]? with
  | none => rw [hi] at h; simp at h
  | some id =>
    rw [hi] at h
    dsimp only at h
    cases hb : broadcast n (lastN n s.lnp) with
    | none => rw [hb] at h; simp at h
    | some l =>
      rw [hb] at h
      dsimp only at h
      cases hc : colsOf n s t params old.val with
      | error x => rw [hc] at h; simp at h
      | ok v =>
        rw [hc] at h
        dsimp only at h
        injection h with h
        subst h
        exact ⟨hi, rfl, rfl, rfl, broadcast_last n hn _ l hs.1 hb, (colsOf_spec n hn s hs t params _ v hc).1⟩

/-- Filling the rows of one patch. -/
lemma putRows_spec (n : Nat) (hn : 0 < n) (params : List String) (p : Int) (s : Patch K) (hs : Enough n s)
    (zs : List Int) (hz : ∀ z ∈ zs, 0 ≤ z) (t : Nat) (cat cat' : List (SampleRow K))
    (h : putRows n params p s zs t cat = .ok cat') :
    cat'.length = cat.length ∧ ∀ k, k < cat.length → ∃ row, cat'[k]? = some row ∧
      ((∃ u, LastAt (fun z => z = (k : Int)) zs u ∧ RowHolds n params row k p s (t + u)) ∨
        ((∀ z ∈ zs, z ≠ (k : Int)) ∧ cat[k]? = some row)) := by
  induction zs generalizing t cat with
  | nil =>
    obtain rfl : cat = cat' := by simpa [putRows] using h
    exact ⟨rfl, fun k hk => ⟨cat[k], List.getElem?_eq_getElem hk, Or.inr ⟨by simp, List.getElem?_eq_getElem hk⟩⟩⟩
  | cons z zs ih =>
    rw [putRows] at h
    cases hw : wrap cat.length z with
    | none => rw [hw] at h; simp at h
    | some k0 =>
      rw [hw] at h
      dsimp only at h
      obtain ⟨hk0, hz0⟩ := (wrap_iff _ _ _).mp hw
      have hz0' : z = (k0 : Int) := by have := hz z (by simp); omega
      cases ho : cat[k0]? with
      | none => rw [ho] at h; simp at h
      | some old =>
        rw [ho] at h
        dsimp only at h
        cases hr : rowOf n params p s t z old with
        | error x => rw [hr] at h; simp at h
        | ok row =>
          rw [hr] at h
          dsimp only at h
          obtain ⟨h1, h2⟩ := ih (fun z hz' => hz z (List.mem_cons_of_mem _ hz')) (t + 1) (cat.set k0 row) h
          rw [List.length_set] at h1 h2
          refine ⟨h1, ?_⟩
          intro k hk
          obtain ⟨row', h3, h4⟩ := h2 k hk
          refine ⟨row', h3, ?_⟩
          rcases h4 with ⟨u, ⟨⟨q, l1, l2⟩, l3⟩, h5⟩ | ⟨h5, h6⟩
          · left
            refine ⟨u + 1, ⟨⟨q, by simpa using l1, l2⟩, ?_⟩, by rw [← Nat.add_assoc, Nat.add_right_comm]; exact h5⟩
            intro k' p' hk' hp'
            cases k' with
            | zero => omega
            | succ k' => exact l3 k' p' (by omega) (by simpa using hp')
          · by_cases hkk : k0 = k
            · subst hkk
              left
              rw [List.getElem?_set_self hk] at h6
              obtain rfl : row = row' := by simpa using h6
              refine ⟨0, ⟨⟨z, rfl, hz0'⟩, ?_⟩, ?_⟩
              · intro k' p' hk' hp'
                cases k' with
                | zero => omega
                | succ k' => exact h5 p' (List.mem_of_getElem? (by simpa using hp'))
              · rw [hz0'] at hr
                exact rowOf_spec n hn params p s hs t k0 old row hr
            · right
              rw [List.getElem?_set_ne hkk] at h6
              refine ⟨?_, h6⟩
              intro z' hz'
              rcases List.mem_cons.mp hz' with rfl | hz'
              · rw [hz0']; intro h; exact hkk (by exact_mod_cast h)
              · exact h5 z' hz'

/-- The row of source `k` is that of the last of the patches in which the source is active, or the
row it was. -/
def LatestRow (read : Int → Option (Patch K)) (n : Nat) (params : List String) (patches : List Int) (k : Nat)
    (old row : SampleRow K) : Prop :=
  (∃ pre p post s t, patches = pre ++ p :: post ∧ read p = some s ∧ LastAt (fun z => z = (k : Int)) s.index t ∧
    (∀ q ∈ post, ∀ s', read q = some s' → (k : Int) ∉ s'.index) ∧ RowHolds n params row k p s t) ∨
  ((∀ q ∈ patches, ∀ s', read q = some s' → (k : Int) ∉ s'.index) ∧ row = old)

lemma putPatches_spec (read : Int → Option (Patch K)) (n : Nat) (hn : 0 < n) (params : List String)
    (ps : List Int) (hps : ∀ p ∈ ps, ∀ s, read p = some s → Enough n s ∧ Proper s)
    (cat cat' : List (SampleRow K)) (h : putPatches read n params ps cat = .ok cat') :
    cat'.length = cat.length ∧ ∀ k old, cat[k]? = some old → ∃ row, cat'[k]? = some row ∧
      LatestRow read n params ps k old row := by
  induction ps generalizing cat with
  | nil =>
    obtain rfl : cat = cat' := by simpa [putPatches] using h
    exact ⟨rfl, fun k old ho => ⟨old, ho, Or.inr ⟨by simp, rfl⟩⟩⟩
  | cons p ps ih =>
    rw [putPatches] at h
    cases hr : read p with
    | none => rw [hr] at h; simp at h
    | some s =>
      rw [hr] at h
      dsimp only at h
      cases hq : putRows n params p s s.index 0 cat with
      | error x => rw [hq] at h; simp at h
      | ok cat1 =>
        rw [hq] at h
        dsimp only at h
        obtain ⟨he, hp⟩ := hps p (by simp) s hr
        obtain ⟨g1, g2⟩ := putRows_spec n hn params p s he s.index hp 0 cat cat1 hq
        obtain ⟨i1, i2⟩ := ih (fun q hq => hps q (List.mem_cons_of_mem _ hq)) cat1 h
        refine ⟨by rw [i1, g1], ?_⟩
        intro k old ho
        have hk := (List.getElem?_eq_some_iff.mp ho).1
        obtain ⟨row1, g3, g4⟩ := g2 k hk
        obtain ⟨row, i3, i4⟩ := i2 k row1 g3
        refine ⟨row, i3, ?_⟩
        rcases i4 with ⟨pre, q, post, s', t, j1, j2, j3, j4, j5⟩ | ⟨j1, rfl⟩
        · exact Or.inl ⟨p :: pre, q, post, s', t, by rw [j1]; rfl, j2, j3, j4, j5⟩
        · rcases g4 with ⟨u, g5, g6⟩ | ⟨g5, g6⟩
          · rw [Nat.zero_add] at g6
            exact Or.inl ⟨[], p, ps, s, u, rfl, hr, g5, j1, g6⟩
          · right
            refine ⟨?_, by rw [ho] at g6; simpa using g6.symm⟩
            intro q hq s' hs'
            rcases List.mem_cons.mp hq with rfl | hq
            · obtain rfl : s = s' := by rw [hr] at hs'; simpa using hs'
              intro hm
              exact g5 _ hm rfl
            · exact j1 q hq s' hs'

/-- **C66.**  The catalog has a row for every source of the final catalog.  The row of a source holds
the id, wall time, log-probabilities and the last samples of every parameter from the last patch in the
log in which the source was active; the row of a source that was in no patch is marked with id -1 and
is zero otherwise. -/
theorem C66_rows [Zero K] (read : Int → Option (Patch K)) (plog : List Int) (nfinal : Nat)
    (cat : List (SampleRow K)) (h : postsampleCatalog read plog nfinal none = .ok cat) (p0 : Int) (s0 : Patch K)
    (hp0 : plog.head? = some p0) (hs0 : read p0 = some s0) (hn : 0 < s0.nSample)
    (hok : ∀ p ∈ plog, ∀ s, read p = some s → Enough s0.nSample s ∧ Proper s) :
    cat.length = nfinal ∧ ∀ k, k < nfinal → ∃ row, cat[k]? = some row ∧
      LatestRow read s0.nSample (s0.bands ++ s0.shapes) plog k
        ⟨-1, 0, 0, 0, List.replicate s0.nSample 0, fun _ => List.replicate s0.nSample 0⟩ row ∧
      ((∀ q ∈ plog, ∀ s', read q = some s' → (k : Int) ∉ s'.index) → row.id = -1) := by
  unfold postsampleCatalog sampleCatalog at h
  cases plog with
  | nil => simp at hp0
  | cons p ps =>
    obtain rfl : p = p0 := by simpa using hp0
    dsimp only at h
    rw [hs0] at h
    dsimp only at h
    split at h
    · obtain ⟨h1, h2⟩ := putPatches_spec read s0.nSample hn _ _ hok _ cat h
      refine ⟨by rw [h1, List.length_replicate], ?_⟩
      intro k hk
      obtain ⟨row, h3, h4⟩ := h2 k (freshRow s0.nSample) (List.getElem?_replicate_of_lt hk)
      refine ⟨row, h3, h4, ?_⟩
      intro hno
      rcases h4 with ⟨pre, q, post, s, t, j1, j2, ⟨⟨z, j3, rfl⟩, -⟩, -⟩ | ⟨-, rfl⟩
      · exact absurd (List.mem_of_getElem? j3) (hno q (by rw [j1]; simp) s j2)
      · rfl
    · simp at h

/-- The file is complete for catalogs of `size` rows with `n` samples of the parameters. -/
structure Complete (n size : Nat) (params : List String) (s : Patch K) : Prop where
  lnp : n ≤ s.lnp.length
  index : ∀ z ∈ s.index, 0 ≤ z ∧ z < size
  ids : s.ids.length = s.index.length
  cols : ∀ col ∈ params, ∃ rows, s.chain col = some rows ∧ rows.length = s.index.length ∧ ∀ l ∈ rows, n ≤ l.length

lemma putRows_ok (n : Nat) (hn : 0 < n) (params : List String) (p : Int) (s : Patch K) (size : Nat)
    (hs : Complete n size params s) (zs : List Int) (t : Nat) (ht : t + zs.length = s.index.length)
    (hz : ∀ z ∈ zs, 0 ≤ z ∧ z < size) (cat : List (SampleRow K)) (hc : cat.length = size) :
    ∃ cat', putRows n params p s zs t cat = .ok cat' ∧ cat'.length = size := by
  induction zs generalizing t cat with
  | nil => exact ⟨cat, rfl, hc⟩
  | cons z zs ih =>
    have hzb := hz z (by simp)
    have hw : wrap cat.length z = some z.toNat := (wrap_iff _ _ _).mpr ⟨by omega, by omega⟩
    have hlt : z.toNat < cat.length := by omega
    have htl : t < s.index.length := by rw [← ht]; simp
    have hcell : ∀ col ∈ params, ∃ r, cellOf n s t col = .ok r := by
      intro col hcol
      obtain ⟨rows, h1, h2, h3⟩ := hs.cols col hcol
      have hl : t < rows.length := by rw [h2]; exact htl
      unfold cellOf
      rw [h1]
      dsimp only
      rw [List.getElem?_eq_getElem hl]
      dsimp only
      rw [broadcast_eq _ n (lastN_spec n hn _ (h3 _ (List.getElem_mem hl))).1]
      exact ⟨_, rfl⟩
    have hcols : ∀ (cols : List String) (v : String → List K), (∀ c ∈ cols, c ∈ params) →
        ∃ v', colsOf n s t cols v = .ok v' := by
      intro cols
      induction cols with
      | nil => intro v _; exact ⟨v, rfl⟩
      | cons c cols ih2 =>
        intro v hsub
        obtain ⟨r, hr⟩ := hcell c (hsub c (by simp))
        obtain ⟨v', hv'⟩ := ih2 (Function.update v c r) fun c hc => hsub c (List.mem_cons_of_mem _ hc)
        exact ⟨v', by rw [colsOf, hr]; exact hv'⟩
    obtain ⟨v', hv'⟩ := hcols params cat[z.toNat].val fun c hc => hc
    have hrow : ∃ row, rowOf n params p s t z cat[z.toNat] = .ok row := by
      unfold rowOf
      rw [List.getElem?_eq_getElem (by rw [hs.ids]; exact htl), broadcast_eq _ n (lastN_spec n hn _ hs.lnp).1]
      dsimp only
      rw [hv']
      exact ⟨_, rfl⟩
    obtain ⟨row, hrow⟩ := hrow
    obtain ⟨cat', h1, h2⟩ := ih (t + 1) (by rw [← ht]; simp; omega)
      (fun z hz' => hz z (List.mem_cons_of_mem _ hz')) (cat.set z.toNat row) (by simpa using hc)
    refine ⟨cat', ?_, h2⟩
    rw [putRows, hw]
    dsimp only
    rw [List.getElem?_eq_getElem hlt]
    dsimp only
    rw [hrow]
    exact h1

/-- **C66, when it succeeds.**  With a log that is not empty and files that are there and complete the
catalog is made. -/
theorem C66_succeeds [Zero K] (read : Int → Option (Patch K)) (plog : List Int) (nfinal : Nat) (p0 : Int)
    (s0 : Patch K) (hp0 : plog.head? = some p0) (hs0 : read p0 = some s0) (hn : 0 < s0.nSample)
    (hnd : (infoCols ++ (s0.bands ++ s0.shapes)).Nodup)
    (hok : ∀ p ∈ plog, ∃ s, read p = some s ∧ Complete s0.nSample nfinal (s0.bands ++ s0.shapes) s) :
    ∃ cat, postsampleCatalog read plog nfinal none = .ok cat := by
  have key : ∀ (ps : List Int) (cat : List (SampleRow K)), cat.length = nfinal →
      (∀ p ∈ ps, ∃ s, read p = some s ∧ Complete s0.nSample nfinal (s0.bands ++ s0.shapes) s) →
      ∃ cat', putPatches read s0.nSample (s0.bands ++ s0.shapes) ps cat = .ok cat' := by
    intro ps
    induction ps with
    | nil => intro cat _ _; exact ⟨cat, rfl⟩
    | cons p ps ih =>
      intro cat hc hps
      obtain ⟨s, h1, h2⟩ := hps p (by simp)
      obtain ⟨cat1, h3, h4⟩ := putRows_ok s0.nSample hn _ p s nfinal h2 s.index 0 (by simp) h2.index cat hc
      obtain ⟨cat', h5⟩ := ih cat1 h4 fun q hq => hps q (List.mem_cons_of_mem _ hq)
      refine ⟨cat', ?_⟩
      rw [putPatches, h1]
      dsimp only
      rw [h3]
      exact h5
  unfold postsampleCatalog sampleCatalog
  cases plog with
  | nil => simp at hp0
  | cons p ps =>
    obtain rfl : p = p0 := by simpa using hp0
    dsimp only
    rw [hs0]
    dsimp only
    rw [if_pos hnd]
    exact key (p :: ps) _ (by simp) hok

/-- A run of two patches in which source 1 was active twice and source 2 never. -/
def exRead : Int → Option (Patch Int)
  | 0 => some ⟨["F"], ["ra"], 1, [0, 1], [10, 11], 5, [7, 8], fun c => if c = "F" ∨ c = "ra" then some [[1, 2], [3, 4]] else none⟩
  | 1 => some ⟨["F"], ["ra"], 1, [1], [11], 6, [9], fun c => if c = "F" ∨ c = "ra" then some [[20]] else none⟩
  | _ => none

example : ∃ cat, postsampleCatalog exRead [0, 1] 3 none = .ok cat ∧ (cat.map (·.id)) = [10, 11, -1] ∧
    (cat.map (·.patchId)) = [0, 1, 0] ∧ (cat.map fun r => r.val "F") = [[2], [20], [0]] :=
  ⟨_, rfl, by decide +kernel, by decide +kernel, by decide +kernel⟩

/-- **C66 with explicit patches is false.**  The number of rows is then the number of patches given, not
the number of sources, and a source number that is not smaller raises `IndexError`. -/
theorem C66_explicit_refuted [Zero K] (read : Int → Option (Patch K)) (plog : List Int) (nfinal : Nat)
    (ps : List Int) :
    (∀ cat, postsampleCatalog read plog nfinal (some ps) = .ok cat → cat.length = ps.length) ∧
    (∀ (p : Int) (s : Patch K) (z : Int), ps.head? = some p → read p = some s →
      (infoCols ++ (s.bands ++ s.shapes)).Nodup → s.index.head? = some z → (ps.length : Int) ≤ z →
      postsampleCatalog read plog nfinal (some ps) = .error .index) := by
  have hrow : ∀ (n : Nat) (params : List String) (p : Int) (s : Patch K) (zs : List Int) (t : Nat)
      (cat cat' : List (SampleRow K)), putRows n params p s zs t cat = .ok cat' → cat'.length = cat.length := by
    intro n params p s zs
    induction zs with
    | nil => intro t cat cat' h; obtain rfl : cat = cat' := by simpa [putRows] using h
             rfl
    | cons z zs ih =>
      intro t cat cat' h
      rw [putRows] at h
      split at h
      · simp at h
      · split at h
        · simp at h
        · split at h
          · simp at h
          · rw [ih _ _ _ h, List.length_set]
  have hlen : ∀ (n : Nat) (params : List String) (ps : List Int) (cat cat' : List (SampleRow K)),
      putPatches read n params ps cat = .ok cat' → cat'.length = cat.length := by
    intro n params ps
    induction ps with
    | nil => intro cat cat' h; obtain rfl : cat = cat' := by simpa [putPatches] using h
             rfl
    | cons p ps ih =>
      intro cat cat' h
      rw [putPatches] at h
      split at h
      · simp at h
      · split at h
        · simp at h
        · rename_i hq
          rw [ih _ _ h, hrow _ _ _ _ _ _ _ _ hq]
  constructor
  · intro cat h
    unfold postsampleCatalog sampleCatalog at h
    cases ps with
    | nil => simp at h
    | cons p ps =>
      dsimp only at h
      split at h
      · simp at h
      · split at h
        · rw [hlen _ _ _ _ _ h, List.length_replicate]
        · simp at h
  · intro p s z hp hs hnd hz hle
    unfold postsampleCatalog sampleCatalog
    cases ps with
    | nil => simp at hp
    | cons p' ps =>
      obtain rfl : p' = p := by simpa using hp
      dsimp only
      rw [hs]
      dsimp only
      rw [if_pos hnd, putPatches, hs]
      dsimp only
      cases hi : s.index with
      | nil => rw [hi] at hz; simp at hz
      | cons z' zs =>
        rw [hi] at hz
        obtain rfl : z' = z := by simpa using hz
        have hw : wrap (p' :: ps).length z' = none := by
          cases hw : wrap (p' :: ps).length z' with
          | none => rfl
          | some k =>
            have := (wrap_iff _ _ _).mp hw
            omega
        rw [putRows, List.length_replicate, hw]

example : postsampleCatalog exRead [0, 1] 3 (some [1]) = .error .index := rfl

/-! ## C84: sources in several patches -/

variable {R : Type}

lemma indexOf_iff (z : Int) (l : List Int) (t : Nat) :
    indexOf z l = some t ↔ l[t]? = some z ∧ ∀ u, u < t → l[u]? ≠ some z := by
  induction l generalizing t with
  | nil => simp [indexOf]
  | cons x l ih =>
    rw [indexOf]
    by_cases hx : x = z
    · rw [if_pos hx]
      constructor
      · intro h
        obtain rfl : 0 = t := by simpa using h
        exact ⟨by simp [hx], by omega⟩
      · rintro ⟨-, h2⟩
        cases t with
        | zero => rfl
        | succ t => exact absurd (by simp [hx]) (h2 0 (by omega))
    · rw [if_neg hx]
      constructor
      · intro h
        obtain ⟨u, hu, rfl⟩ := Option.map_eq_some_iff.mp h
        obtain ⟨h1, h2⟩ := (ih u).mp hu
        refine ⟨by simpa using h1, ?_⟩
        intro w hw
        cases w with
        | zero => simpa using hx
        | succ w => simpa using h2 w (by omega)
      · rintro ⟨h1, h2⟩
        cases t with
        | zero => exact absurd (by simpa using h1) hx
        | succ t =>
          rw [(ih t).mpr ⟨by simpa using h1, fun u hu => by simpa using h2 (u + 1) (by omega)⟩]
          rfl

/-- The chain of source `sid` in the file of patch `pid`. -/
def ChainIn (read : Int → Option (ChainFile R)) (sid pid : Int) (r : R) : Prop :=
  ∃ (s : ChainFile R) (t : Nat), read pid = some s ∧ s.index[t]? = some sid ∧ (∀ u, u < t → s.index[u]? ≠ some sid) ∧
    s.rows[t]? = some r

lemma mapM_ok_iff {α β : Type} (f : α → Except Err β) (l : List α) (r : List β) :
    l.mapM f = .ok r ↔ List.Forall₂ (fun a b => f a = .ok b) l r := by
  induction l generalizing r with
  | nil =>
    simp only [List.mapM_nil, List.forall₂_nil_left_iff]
    constructor
    · intro h
      have h' : (Except.ok [] : Except Err (List β)) = .ok r := h
      injection h' with h'
      exact h'.symm
    · rintro rfl; rfl
  | cons a l ih =>
    rw [List.mapM_cons]
    constructor
    · intro h
      cases hfa : f a with
      | error x => rw [hfa] at h; cases h
      | ok b =>
        cases hl : l.mapM f with
        | error x => rw [hfa, hl] at h; cases h
        | ok bs =>
          rw [hfa, hl] at h
          have h' : (Except.ok (b :: bs) : Except Err (List β)) = .ok r := h
          injection h' with h'
          rw [← h']
          exact List.Forall₂.cons hfa ((ih bs).mp hl)
    · intro h
      cases h with
      | cons h1 h2 =>
        rw [h1, (ih _).mpr h2]
        rfl

/-- The entry of the log that is used for patch number `pid`: the file at that position of the log. -/
lemma chainOf_spec (read : Int → Option (ChainFile R)) (plog : List Int) (samples : List (ChainFile R))
    (hs : plog.mapM read = some samples) (sid : Int) (pid : Nat) (r : R) :
    chainOf samples sid pid = .ok r ↔ ∃ q, plog[pid]? = some q ∧ ChainIn read sid q r := by
  obtain ⟨hlen, hget⟩ := (mapM_some_iff _ _ _).mp hs
  unfold chainOf
  constructor
  · intro h
    cases hw : wrap samples.length (pid : Int) with
    | none => rw [hw] at h; simp at h
    | some k =>
      rw [hw] at h
      dsimp only at h
      obtain ⟨hk, hk'⟩ := (wrap_iff _ _ _).mp hw
      obtain rfl : pid = k := by omega
      cases hx : samples[pid]? with
      | none => rw [hx] at h; simp at h
      | some s =>
        rw [hx] at h
        dsimp only at h
        cases ht : indexOf sid s.index with
        | none => rw [ht] at h; simp at h
        | some t =>
          rw [ht] at h
          dsimp only at h
          cases hr : s.rows[t]? with
          | none => rw [hr] at h; simp at h
          | some r' =>
            rw [hr] at h
            obtain rfl : r' = r := by injection h
            have hp : pid < plog.length := by omega
            have := hget pid plog[pid] (List.getElem?_eq_getElem hp)
            rw [hx] at this
            obtain ⟨t1, t2⟩ := (indexOf_iff _ _ _).mp ht
            exact ⟨plog[pid], List.getElem?_eq_getElem hp, s, t, this, t1, t2, hr⟩
  · rintro ⟨q, hq, s, t, h1, h2, h3, h4⟩
    have hp : pid < plog.length := (List.getElem?_eq_some_iff.mp hq).1
    have hw : wrap samples.length (pid : Int) = some pid := (wrap_iff _ _ _).mpr ⟨by omega, Or.inl rfl⟩
    have hx : samples[pid]? = some s := by rw [← hget pid q hq, h1]
    rw [hw]
    dsimp only
    rw [hx]
    dsimp only
    rw [(indexOf_iff _ _ _).mpr ⟨h2, h3⟩]
    dsimp only
    rw [h4]

/-- **C84, what is returned.**  For every logged source with other than one patch, in the order of the
log, the source, its patches, and for each of its patches `pid` the chain of the source in the patch at
*position* `pid` of the patch log. -/
theorem C84_returned (read : Int → Option (ChainFile R)) (plog : List Int) (slog : List (Int × List Nat))
    (out : List (Int × List Int × List R))
    (h : findMultipatch read plog (slog.map fun e => (e.1, e.2.map fun (p : Nat) => (p : Int))) = .ok out) :
    List.Forall₂ (fun (e : Int × List Nat) (o : Int × List Int × List R) =>
        o.1 = e.1 ∧ o.2.1 = e.2.map (fun (p : Nat) => (p : Int)) ∧
        List.Forall₂ (fun pid r => ∃ q, plog[pid]? = some q ∧ ChainIn read e.1 q r) e.2 o.2.2)
      (slog.filter fun e => e.2.length ≠ 1) out := by
  unfold findMultipatch at h
  cases hs : plog.mapM read with
  | none => rw [hs] at h; simp at h
  | some samples =>
    rw [hs] at h
    dsimp only at h
    induction slog generalizing out with
    | nil =>
      have h' : (Except.ok [] : Except Err (List (Int × List Int × List R))) = .ok out := h
      injection h' with h'
      rw [← h']
      simp
    | cons e slog ih =>
      obtain ⟨sid, pids⟩ := e
      rw [List.map_cons] at h
      rw [multi] at h
      rw [List.length_map] at h
      by_cases h1 : pids.length = 1
      · rw [if_pos h1] at h
        rw [List.filter_cons_of_neg (by simp [h1])]
        exact ih out h
      · rw [if_neg h1] at h
        rw [List.filter_cons_of_pos (by simp [h1])]
        cases hc : chainsOf samples sid (pids.map fun (p : Nat) => (p : Int)) with
        | error x => rw [hc] at h; simp at h
        | ok c =>
          rw [hc] at h
          dsimp only at h
          cases hm : multi samples (slog.map fun e => (e.1, e.2.map fun (p : Nat) => (p : Int))) with
          | error x => rw [hm] at h; simp at h
          | ok r =>
            rw [hm] at h
            dsimp only at h
            injection h with h
            rw [← h]
            refine List.Forall₂.cons ⟨rfl, rfl, ?_⟩ (ih r hm)
            have hc' : (pids.map fun (p : Nat) => (p : Int)).mapM (chainOf samples sid) = .ok c := by
              unfold chainsOf at hc
              split at hc
              · simp at hc
              · exact hc
            have := (mapM_ok_iff _ _ _).mp hc'
            rw [List.forall₂_map_left_iff] at this
            exact this.imp fun a b hab => (chainOf_spec read plog samples hs sid a b).mp hab

/-- **C84 for a log in order.**  When patch number `i` was logged at position `i`, the chains returned
for a source are those of the patches the source was in. -/
theorem C84_ordered_partial (read : Int → Option (ChainFile R)) (n : Nat) (slog : List (Int × List Nat))
    (out : List (Int × List Int × List R))
    (h : findMultipatch read ((List.range n).map fun (i : Nat) => (i : Int))
      (slog.map fun e => (e.1, e.2.map fun (p : Nat) => (p : Int))) = .ok out) :
    List.Forall₂ (fun (e : Int × List Nat) (o : Int × List Int × List R) =>
        o.1 = e.1 ∧ o.2.1 = e.2.map (fun (p : Nat) => (p : Int)) ∧
        List.Forall₂ (fun (pid : Nat) r => ChainIn read e.1 pid r) e.2 o.2.2)
      (slog.filter fun e => e.2.length ≠ 1) out := by
  refine (C84_returned read _ slog out h).imp ?_
  rintro e o ⟨h1, h2, h3⟩
  refine ⟨h1, h2, h3.imp ?_⟩
  rintro pid r ⟨q, hq, hr⟩
  have hp : pid < n := by
    have := (List.getElem?_eq_some_iff.mp hq).1
    simpa using this
  rw [List.getElem?_map, List.getElem?_range hp] at hq
  obtain rfl : (pid : Int) = q := by simpa using hq
  exact hr

/-- The claim of C84 in full. -/
def C84_claim : Prop :=
  ∀ (read : Int → Option (ChainFile Nat)) (plog : List Int) (slog : List (Int × List Nat))
    (out : List (Int × List Int × List Nat)), plog.Nodup → (∀ e ∈ slog, ∀ p ∈ e.2, (p : Int) ∈ plog) →
    findMultipatch read plog (slog.map fun e => (e.1, e.2.map fun (p : Nat) => (p : Int))) = .ok out →
    List.Forall₂ (fun (e : Int × List Nat) (o : Int × List Int × List Nat) =>
        List.Forall₂ (fun (pid : Nat) r => ChainIn read e.1 pid r) e.2 o.2.2)
      (slog.filter fun e => e.2.length ≠ 1) out

/-- Two patches with the same source, finished in the order 1, 0. -/
def exChains : Int → Option (ChainFile Nat)
  | 0 => some ⟨[5], [100]⟩
  | 1 => some ⟨[5], [200]⟩
  | _ => none

/-- **C84 is false** when the patches were not logged in the order of their numbers: the chains are
returned silently under the wrong patches. -/
theorem C84_refuted : ¬ C84_claim := by
  intro hc
  have h : findMultipatch exChains [1, 0] ([((5 : Int), [0, 1])].map fun e => (e.1, e.2.map fun (p : Nat) => (p : Int))) =
      .ok [(5, [0, 1], [200, 100])] := rfl
  have := hc exChains [1, 0] [(5, [0, 1])] _ (by decide) (by decide) h
  rw [List.filter_cons_of_pos (by decide)] at this
  cases this with
  | cons h1 _ =>
    cases h1 with
    | cons h2 _ =>
      obtain ⟨s, t, e1, e2, -, e3⟩ := h2
      have hs : s = ⟨[5], [100]⟩ := by
        have : exChains 0 = some s := e1
        simpa [exChains] using this.symm
      subst hs
      cases t with
      | zero => simp at e3
      | succ t => simp at e3

/-! ## C83: flux uncertainties -/

lemma foldl_pick {α β : Type} (P : α → Prop) [DecidablePred P] (f : α → β) (l : List α) (a : β) :
    (∃ pre t post, l = pre ++ t :: post ∧ P t ∧ (∀ u ∈ post, ¬ P u) ∧
      l.foldl (fun acc t => if P t then f t else acc) a = f t) ∨
    ((∀ t ∈ l, ¬ P t) ∧ l.foldl (fun acc t => if P t then f t else acc) a = a) := by
  induction l generalizing a with
  | nil => right; simp
  | cons x l ih =>
    rw [List.foldl_cons]
    rcases ih (if P x then f x else a) with ⟨pre, t, post, h1, h2, h3, h4⟩ | ⟨h1, h2⟩
    · exact Or.inl ⟨x :: pre, t, post, by rw [h1]; rfl, h2, h3, h4⟩
    · by_cases hx : P x
      · exact Or.inl ⟨[], x, l, rfl, hx, h1, by rw [h2, if_pos hx]⟩
      · refine Or.inr ⟨?_, by rw [h2, if_neg hx]⟩
        intro t ht
        rcases List.mem_cons.mp ht with rfl | ht
        · exact hx
        · exact h1 t ht

lemma putSigma_spec (u u' : Unc) (b : String) (size : Nat) (index : List Int) (hz : ∀ z ∈ index, 0 ≤ z)
    (sigma : Fin index.length → Option ℝ) (h : putSigma u b size index sigma = .ok u') :
    (∀ c k, c ≠ b → u' c k = u c k) ∧
    ∀ k : Nat, ((∃ t : Fin index.length, index[t] = (k : Int) ∧ (∀ t' : Fin index.length, t < t' → index[t'] ≠ (k : Int)) ∧
        u' b k = sigma t) ∨
      ((k : Int) ∉ index ∧ u' b k = u b k)) := by
  unfold putSigma at h
  cases hm : index.mapM (wrap size) with
  | none => rw [hm] at h; simp at h
  | some ks =>
    rw [hm] at h
    dsimp only at h
    injection h with h
    subst h
    obtain ⟨hlen, hget⟩ := (mapM_some_iff _ _ _).mp hm
    refine ⟨fun c k hc => if_neg hc, ?_⟩
    intro k
    simp only [if_true]
    have hP : ∀ t : Fin index.length, ks[t.val]? = some k ↔ index[t] = (k : Int) := by
      intro t
      have h1 := hget t.val index[t] (List.getElem?_eq_getElem t.isLt)
      rw [← h1, wrap_iff]
      have hnn := hz index[t] (List.getElem_mem _)
      constructor
      · rintro ⟨ha, hb⟩; omega
      · intro hk
        have hlt : t.val < ks.length := by rw [← hlen]; exact t.isLt
        rw [List.getElem?_eq_getElem hlt] at h1
        have := (wrap_iff _ _ _).mp h1
        constructor <;> omega
    rcases foldl_pick (fun t : Fin index.length => ks[t.val]? = some k) sigma (List.finRange index.length) (u b k) with
      ⟨pre, t, post, h1, h2, h3, h4⟩ | ⟨h1, h2⟩
    · left
      refine ⟨t, (hP t).mp h2, ?_, h4⟩
      intro t' hlt hk
      have hpw := List.pairwise_lt_finRange index.length
      rw [h1] at hpw
      have hmem : t' ∈ pre ++ t :: post := by rw [← h1]; exact List.mem_finRange t'
      rcases List.mem_append.mp hmem with hmem | hmem
      · have := (List.pairwise_append.mp hpw).2.2 t' hmem t (by simp)
        exact absurd this (by exact fun h => absurd (lt_trans h hlt) (lt_irrefl _))
      · rcases List.mem_cons.mp hmem with rfl | hmem
        · exact absurd hlt (lt_irrefl _)
        · exact h3 t' hmem ((hP t').mpr hk)
    · right
      refine ⟨?_, h2⟩
      intro hin
      obtain ⟨t, ht, hk⟩ := List.getElem_of_mem hin
      exact h1 ⟨t, ht⟩ (List.mem_finRange _) ((hP ⟨t, ht⟩).mpr hk)

variable (pinv : ∀ m : Nat, Matrix (Fin m) (Fin m) ℝ → Matrix (Fin m) (Fin m) ℝ)

/-- The file is as the fitting code writes it: source numbers are not negative, bands differ, and the
precision matrices are positive definite (see C62). -/
def FitFile (s : PrecFile) : Prop :=
  (∀ z ∈ s.index, 0 ≤ z) ∧ s.bands.Nodup ∧ ∀ Ps, s.precisions = some Ps → ∀ P ∈ Ps, P.PosDef

/-- The uncertainty of source `k` from file `s`: the larger of its marginal standard deviation and its
flux over the maximal signal to noise. -/
def SigmaFrom (snrMax : ℝ) (s : PrecFile) (b : String) (k : Nat) (x : Option ℝ) : Prop :=
  ∃ (t : Fin s.index.length) (i : Nat) (Ps : List (Matrix (Fin s.index.length) (Fin s.index.length) ℝ))
    (P : Matrix (Fin s.index.length) (Fin s.index.length) ℝ),
    s.bands[i]? = some b ∧ s.precisions = some Ps ∧ Ps[i]? = some P ∧ s.index[t] = (k : Int) ∧
    (∀ t' : Fin s.index.length, t < t' → s.index[t'] ≠ (k : Int)) ∧
    x = some (max (Real.sqrt (P⁻¹ t t)) (s.flux b t / snrMax))

lemma sigmaOf_spec (hpinv : ∀ (m : Nat) (P : Matrix (Fin m) (Fin m) ℝ), P.PosDef → pinv m P = P⁻¹) (snrMax : ℝ)
    (s : PrecFile) (P : Matrix (Fin s.index.length) (Fin s.index.length) ℝ) (hP : P.PosDef) (b : String)
    (t : Fin s.index.length) :
    sigmaOf pinv snrMax s P b t = some (max (Real.sqrt (P⁻¹ t t)) (s.flux b t / snrMax)) := by
  unfold sigmaOf sqrtNan
  rw [hpinv _ P hP, if_pos hP.inv.diag_pos.le]
  rfl

lemma putBands_spec (hpinv : ∀ (m : Nat) (P : Matrix (Fin m) (Fin m) ℝ), P.PosDef → pinv m P = P⁻¹) (snrMax : ℝ)
    (cols : List String) (size : Nat) (s : PrecFile) (hs : FitFile s) (bs : List String) (i : Nat)
    (hb : s.bands.drop i = bs) (u u' : Unc) (h : putBands pinv snrMax cols size s bs i u = .ok u') (b : String) (k : Nat) :
    (b ∈ bs ∧ (k : Int) ∈ s.index ∧ SigmaFrom snrMax s b k (u' b k)) ∨
    (¬ (b ∈ bs ∧ (k : Int) ∈ s.index) ∧ u' b k = u b k) := by
  induction bs generalizing i u with
  | nil =>
    obtain rfl : u = u' := by simpa [putBands] using h
    exact Or.inr ⟨by simp, rfl⟩
  | cons c bs ih =>
    rw [putBands] at h
    cases hp : s.precisions with
    | none => rw [hp] at h; simp at h
    | some Ps =>
    rw [hp] at h
    dsimp only at h
    cases hi : Ps[i]? with
    | none => rw [hi] at h; simp at h
    | some P =>
    rw [hi] at h
    dsimp only at h
    by_cases hc : c ∈ cols
    · rw [if_pos hc] at h
      cases hput : putSigma u c size s.index (sigmaOf pinv snrMax s P c) with
      | error x => rw [hput] at h; simp at h
      | ok u1 =>
        rw [hput] at h
        dsimp only at h
        have hdrop : s.bands.drop (i + 1) = bs := by
          rw [← List.drop_drop, hb]; rfl
        have hci : s.bands[i]? = some c := by
          have : (s.bands.drop i)[0]? = some c := by rw [hb]; rfl
          simpa using this
        have hPd : P.PosDef := hs.2.2 Ps hp P (List.mem_of_getElem? hi)
        obtain ⟨p1, p2⟩ := putSigma_spec u u1 c size s.index hs.1 _ hput
        rcases ih (i + 1) hdrop u1 h with ⟨h1, h2, h3⟩ | ⟨h1, h2⟩
        · exact Or.inl ⟨List.mem_cons_of_mem _ h1, h2, h3⟩
        · by_cases hbc : b = c
          · subst hbc
            have hnb : b ∉ bs := by
              have hnd : (s.bands.drop i).Nodup := hs.2.1.sublist (List.drop_sublist _ _)
              rw [hb] at hnd
              exact (List.nodup_cons.mp hnd).1
            rcases p2 k with ⟨t, q1, q2, q3⟩ | ⟨q1, q2⟩
            · left
              refine ⟨by simp, by rw [← q1]; exact List.getElem_mem _, t, i, Ps, P, hci, hp, hi, q1, q2, ?_⟩
              rw [h2, q3, sigmaOf_spec pinv hpinv snrMax s P hPd b t]
            · right
              exact ⟨fun hh => q1 hh.2, by rw [h2, q2]⟩
          · right
            refine ⟨?_, by rw [h2, p1 b k hbc]⟩
            rintro ⟨hm, hk⟩
            rcases List.mem_cons.mp hm with hm | hm
            · exact hbc hm
            · exact h1 ⟨hm, hk⟩
    · rw [if_neg hc] at h; simp at h

/-- **C83.**  The reported flux uncertainty of a source in a band is, for the last patch in the log that
has the band and the source, the larger of the marginal standard deviation (square root of the diagonal
of the inverse precision matrix) and flux over the maximal signal to noise; for a source in no such
patch it is the default. -/
theorem C83_sigma (hpinv : ∀ (m : Nat) (P : Matrix (Fin m) (Fin m) ℝ), P.PosDef → pinv m P = P⁻¹) (snrMax : ℝ)
    (read : Int → Option PrecFile) (plog : List Int) (bandlist cols : List String) (size : Nat)
    (final : String → List ℝ) (u : Unc)
    (h : fluxUncLinear pinv snrMax read plog bandlist cols size final = .ok u)
    (hfit : ∀ p ∈ plog, ∀ s, read p = some s → FitFile s) (b : String) (k : Nat) :
    (∃ pre p post s, plog = pre ++ p :: post ∧ read p = some s ∧ SigmaFrom snrMax s b k (u b k) ∧
      ∀ q ∈ post, ∀ s', read q = some s' → ¬ (b ∈ s'.bands ∧ (k : Int) ∈ s'.index)) ∨
    ((∀ q ∈ plog, ∀ s', read q = some s' → ¬ (b ∈ s'.bands ∧ (k : Int) ∈ s'.index)) ∧
      u b k = defaults bandlist final b k) := by
  unfold fluxUncLinear at h
  split at h
  · revert h
    generalize defaults bandlist final = u0
    intro h
    induction plog generalizing u0 with
    | nil =>
      obtain rfl : u0 = u := by simpa [putPrecs] using h
      exact Or.inr ⟨by simp, rfl⟩
    | cons p ps ih =>
      rw [putPrecs] at h
      cases hr : read p with
      | none => rw [hr] at h; simp at h
      | some s =>
        rw [hr] at h
        dsimp only at h
        cases hb : putBands pinv snrMax cols size s s.bands 0 u0 with
        | error x => rw [hb] at h; simp at h
        | ok u1 =>
          rw [hb] at h
          dsimp only at h
          rcases ih (fun q hq => hfit q (List.mem_cons_of_mem _ hq)) u1 h with ⟨pre, q, post, s', h1, h2, h3, h4⟩ | ⟨h1, h2⟩
          · exact Or.inl ⟨p :: pre, q, post, s', by rw [h1]; rfl, h2, h3, h4⟩
          · rcases putBands_spec pinv hpinv snrMax cols size s (hfit p (by simp) s hr) s.bands 0 rfl u0 u1 hb b k with
              ⟨-, -, h5⟩ | ⟨h5, h6⟩
            · exact Or.inl ⟨[], p, ps, s, rfl, hr, by rw [h2]; exact h5, h1⟩
            · refine Or.inr ⟨?_, by rw [h2, h6]⟩
              intro q hq s' hs'
              rcases List.mem_cons.mp hq with rfl | hq
              · obtain rfl : s = s' := by rw [hr] at hs'; simpa using hs'
                exact h5
              · exact h1 q hq s' hs'
  · simp at h

/-- **C83, signal to noise.**  An uncertainty taken from a precision matrix is positive and never gives
a signal to noise beyond the maximum. -/
theorem C83_snr (snrMax : ℝ) (hs : 0 < snrMax) (s : PrecFile) (hf : FitFile s) (b : String) (k : Nat) (x : Option ℝ)
    (h : SigmaFrom snrMax s b k x) :
    ∃ (sigma : ℝ) (t : Fin s.index.length), x = some sigma ∧ s.index[t] = (k : Int) ∧ 0 < sigma ∧
      s.flux b t / sigma ≤ snrMax := by
  obtain ⟨t, i, Ps, P, -, h2, h3, h4, -, rfl⟩ := h
  have hP : P.PosDef := hf.2.2 Ps h2 P (List.mem_of_getElem? h3)
  have hpos : 0 < max (Real.sqrt (P⁻¹ t t)) (s.flux b t / snrMax) :=
    lt_of_lt_of_le (Real.sqrt_pos.mpr hP.inv.diag_pos) (le_max_left _ _)
  refine ⟨_, t, rfl, h4, hpos, ?_⟩
  rw [div_le_iff₀ hpos]
  have := le_max_right (Real.sqrt (P⁻¹ t t)) (s.flux b t / snrMax)
  have h5 : s.flux b t ≤ max (Real.sqrt (P⁻¹ t t)) (s.flux b t / snrMax) * snrMax := (div_le_iff₀ hs).mp this
  linarith

/-- **C83, the default.**  For a source with non-zero flux the default is the smallest half-width of an
interval around the flux that contains its one-sigma flux bounds. -/
theorem C83_default (bandlist : List String) (final : String → List ℝ) (b : String) (hb : b ∈ bandlist) (k : Nat)
    (f : ℝ) (hk : (final b)[k]? = some f) (hf : f ≠ 0) :
    ∃ lo hi sigma, (Bounds.fluxBounds 1 (final b))[k]? = some (some lo, some hi) ∧
      defaults bandlist final b k = some sigma ∧ 0 < sigma ∧
      ∀ w, (f - w ≤ lo ∧ hi ≤ f + w) ↔ sigma ≤ w := by
  obtain ⟨p, hp, lo, hi, rfl, h1, h2⟩ := Bounds.C33_contain (u := 1) one_pos hf hk
  refine ⟨lo, hi, max |lo - f| |hi - f|, hp, ?_, ?_, ?_⟩
  · unfold defaults
    rw [if_pos hb, List.getElem?_zip_eq_some (z := (f, (some lo, some hi))) |>.mpr ⟨hk, hp⟩]
    rfl
  · exact lt_of_lt_of_le (abs_pos.mpr (by linarith)) (le_max_left _ _)
  · intro w
    rw [max_le_iff, abs_of_neg (by linarith : lo - f < 0), abs_of_pos (by linarith : 0 < hi - f)]
    constructor
    · rintro ⟨h3, h4⟩; constructor <;> linarith
    · rintro ⟨h3, h4⟩; constructor <;> linarith

/-- **C83, missing precisions.**  The documentation says that a default is used when there is no
precision matrix.  Whenever a logged patch has none (and has a band) no uncertainties are returned. -/
theorem C83_missing_refuted (snrMax : ℝ) (read : Int → Option PrecFile) (plog : List Int)
    (bandlist cols : List String) (size : Nat) (final : String → List ℝ) (p : Int) (hp : p ∈ plog) (s : PrecFile)
    (hs : read p = some s) (hn : s.precisions = none) (hb : s.bands ≠ []) :
    ∀ u, fluxUncLinear pinv snrMax read plog bandlist cols size final ≠ .ok u := by
  intro u h
  unfold fluxUncLinear at h
  split at h
  · revert h
    generalize defaults bandlist final = u0
    intro h
    induction plog generalizing u0 with
    | nil => simp at hp
    | cons q ps ih =>
      rw [putPrecs] at h
      cases hr : read q with
      | none => rw [hr] at h; simp at h
      | some s' =>
        rw [hr] at h
        dsimp only at h
        cases hb' : putBands pinv snrMax cols size s' s'.bands 0 u0 with
        | error x => rw [hb'] at h; simp at h
        | ok u1 =>
          rw [hb'] at h
          dsimp only at h
          rcases List.mem_cons.mp hp with rfl | hp
          · obtain rfl : s = s' := by rw [hs] at hr; simpa using hr
            cases hbs : s.bands with
            | nil => exact hb hbs
            | cons c cs =>
              rw [hbs, putBands, hn] at hb'
              simp at hb'
          · exact ih hp u1 h
  · simp at h

/-- **C83, all columns.**  A band column of the final catalog that is not among the bands of the
run starts at zero. -/
theorem C83_unlisted (hpinv : ∀ (m : Nat) (P : Matrix (Fin m) (Fin m) ℝ), P.PosDef → pinv m P = P⁻¹) (snrMax : ℝ)
    (read : Int → Option PrecFile) (plog : List Int) (bandlist cols : List String) (size : Nat)
    (final : String → List ℝ) (u : Unc)
    (h : fluxUncLinear pinv snrMax read plog bandlist cols size final = .ok u)
    (hfit : ∀ p ∈ plog, ∀ s, read p = some s → FitFile s) (b : String) (hb : b ∉ bandlist) (k : Nat)
    (hno : ∀ q ∈ plog, ∀ s, read q = some s → b ∉ s.bands) : u b k = some 0 := by
  rcases C83_sigma pinv hpinv snrMax read plog bandlist cols size final u h hfit b k with
    ⟨pre, p, post, s, h1, h2, h3, -⟩ | ⟨-, h1⟩
  · obtain ⟨t, i, Ps, P, h4, -⟩ := h3
    exact absurd (List.mem_of_getElem? h4) (hno p (by rw [h1]; simp) s h2)
  · rw [h1]; unfold defaults; rw [if_neg hb]

/-- **C83, success.**  When every band of the run is a column of the final catalog and every logged
patch can be read, has a precision matrix for each of its bands, only bands that are columns and only
sources that are in the catalog, uncertainties are returned. -/
theorem C83_succeeds (snrMax : ℝ) (read : Int → Option PrecFile) (plog : List Int) (bandlist cols : List String)
    (size : Nat) (final : String → List ℝ) (hbl : ∀ b ∈ bandlist, b ∈ cols)
    (hall : ∀ p ∈ plog, ∃ s Ps, read p = some s ∧ s.precisions = some Ps ∧ Ps.length = s.bands.length ∧
      (∀ b ∈ s.bands, b ∈ cols) ∧ ∀ z ∈ s.index, 0 ≤ z ∧ z < size) :
    ∃ u, fluxUncLinear pinv snrMax read plog bandlist cols size final = .ok u := by
  unfold fluxUncLinear
  rw [if_pos hbl]
  generalize defaults bandlist final = u0
  induction plog generalizing u0 with
  | nil => exact ⟨u0, rfl⟩
  | cons p ps ih =>
    obtain ⟨s, Ps, h1, h2, h3, h4, h5⟩ := hall p (by simp)
    have hw : ∃ ks, s.index.mapM (wrap size) = some ks := by
      have : ∀ l : List Int, (∀ z ∈ l, 0 ≤ z ∧ z < size) → ∃ ks, l.mapM (wrap size) = some ks := by
        intro l hl
        induction l with
        | nil => exact ⟨[], rfl⟩
        | cons z zs ihz =>
          obtain ⟨ks, hks⟩ := ihz fun w hw => hl w (List.mem_cons_of_mem _ hw)
          refine ⟨z.toNat :: ks, ?_⟩
          rw [List.mapM_cons, hks]
          have : wrap size z = some z.toNat := by unfold wrap; rw [if_pos (hl z (by simp))]
          rw [this]; rfl
      exact this s.index h5
    obtain ⟨ks, hks⟩ := hw
    have hb : ∀ (bs : List String) (i : Nat) (u : Unc), i + bs.length = Ps.length → (∀ b ∈ bs, b ∈ cols) →
        ∃ u', putBands pinv snrMax cols size s bs i u = .ok u' := by
      intro bs
      induction bs with
      | nil => intro i u _ _; exact ⟨u, rfl⟩
      | cons b bs ihb =>
        intro i u hi hc
        rw [List.length_cons] at hi
        have hil : i < Ps.length := by omega
        have hps : putSigma u b size s.index (sigmaOf pinv snrMax s Ps[i] b) = .ok (fun c k =>
            if c = b then ((List.finRange s.index.length).foldl (fun acc t => if ks[t.val]? = some k then
              sigmaOf pinv snrMax s Ps[i] b t else acc) (u c k)) else u c k) := by
          unfold putSigma; rw [hks]
        rw [putBands, h2]
        dsimp only
        rw [List.getElem?_eq_getElem hil]
        dsimp only
        rw [if_pos (hc b (by simp)), hps]
        exact ihb (i + 1) _ (by omega) fun c hc' => hc c (List.mem_cons_of_mem _ hc')
    obtain ⟨u1, hu1⟩ := hb s.bands 0 u0 (by omega) h4
    rw [putPrecs, h1]
    dsimp only
    rw [hu1]
    exact ih (fun q hq => hall q (List.mem_cons_of_mem _ hq)) u1

/-- **C83, unknown band.**  A band of the run that is not a column is an error. -/
theorem C83_unknown (snrMax : ℝ) (read : Int → Option PrecFile) (plog : List Int) (bandlist cols : List String)
    (size : Nat) (final : String → List ℝ) (b : String) (hb : b ∈ bandlist) (hc : b ∉ cols) :
    fluxUncLinear pinv snrMax read plog bandlist cols size final = .error .key := by
  unfold fluxUncLinear
  rw [if_neg fun h => hc (h b hb)]

/-- A run that meets the hypotheses of C83: one patch with one source and precision 4. -/
noncomputable def exPrec : Int → Option PrecFile := fun p =>
  if p = 0 then some ⟨[0], ["F"], some [1], fun _ _ => 3⟩ else none

example : (∃ u, fluxUncLinear (fun _ P => P⁻¹) 1000 exPrec [0] ["F"] ["F"] 1 (fun _ => [3]) = .ok u) ∧
    ∀ p ∈ [(0 : Int)], ∀ s, exPrec p = some s → FitFile s := by
  constructor
  · have hw : ([0] : List Int).mapM (wrap 1) = some [0] := by decide +kernel
    unfold fluxUncLinear
    rw [if_pos (by simp), putPrecs]
    simp only [exPrec, if_true, putBands, List.getElem?_cons_zero, List.mem_singleton, putSigma]
    rw [hw]
    exact ⟨_, rfl⟩
  · intro p hp s hs
    obtain rfl : p = 0 := by simpa using hp
    simp only [exPrec, if_true, Option.some.injEq] at hs
    subst hs
    refine ⟨by simp, by simp, ?_⟩
    intro Ps hPs P hP
    simp only [Option.some.injEq] at hPs
    subst hPs
    obtain rfl := List.mem_singleton.mp hP
    exact Matrix.PosDef.one

end Forcepho.Postprocess
