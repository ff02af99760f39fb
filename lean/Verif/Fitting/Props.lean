import Verif.Fitting.Model

/-! # C86–C89: what a fit returns -/

set_option autoImplicit false
set_option linter.unusedSectionVars false

namespace Forcepho.Fitting

open Forcepho.Transform (Bounded)
open Forcepho.Bounds (Row boundsVectors fluxBoundPrec checkBounds C34_vectors C34_check Interior)
open Forcepho.Chain (Arr2 ChainCat Table makeChaincat)

/-- The parameter columns of a source in the order of the parameter vector. -/
abbrev parCols (bands : List String) : List String := bands ++ ["ra", "dec", "q", "pa", "sersic", "rhalf"]

/-- The part of a column's value that is not in the parameter vector: the reference position. -/
abbrev offset (ref : ℝ × ℝ) (c : String) : ℝ := if c = "ra" then ref.1 else if c = "dec" then ref.2 else 0

/-! ## C86: samples respect the bounds -/

lemma transform_at (bands : List String) (ref : ℝ × ℝ) (bcat : List (String → ℝ × ℝ))
    (t : Bounded (boundsVectors bands ref bcat).1.length) (ht : prepareTransform bands ref bcat = some t)
    (i j : Nat) (b : String → ℝ × ℝ) (c : String) (hb : bcat[i]? = some b) (hc : (parCols bands)[j]? = some c)
    (h : i * (bands.length + 6) + j < (boundsVectors bands ref bcat).1.length) :
    t.lower ⟨_, h⟩ = (b c).1 - offset ref c ∧ t.upper ⟨_, h⟩ = (b c).2 - offset ref c := by
  obtain ⟨-, -, hv⟩ := C34_vectors bands ref bcat
  obtain ⟨h1, h2⟩ := hv i j b c hb hc _ rfl
  unfold prepareTransform posteriorInit at ht
  split at ht
  · cases ht
  obtain rfl := Option.some.inj ht
  refine ⟨?_, ?_⟩
  · show (boundsVectors bands ref bcat).1.getD (i * (bands.length + 6) + j) 0 = _
    rw [List.getD_eq_getElem?_getD, h1]; rfl
  · show (boundsVectors bands ref bcat).2.getD (i * (bands.length + 6) + j) 0 = _
    rw [List.getD_eq_getElem?_getD, h2]; rfl

/-- Every slot of the parameter vector belongs to a column of a source. -/
lemma slot (bands : List String) (ref : ℝ × ℝ) (bcat : List (String → ℝ × ℝ))
    (k : Fin (boundsVectors bands ref bcat).1.length) :
    ∃ (i j : Nat) (b : String → ℝ × ℝ) (c : String), bcat[i]? = some b ∧ (parCols bands)[j]? = some c ∧
      k.val = i * (bands.length + 6) + j := by
  obtain ⟨hl, -, -⟩ := C34_vectors bands ref bcat
  have hk : k.val < bcat.length * (bands.length + 6) := hl ▸ k.isLt
  have hi : k.val / (bands.length + 6) < bcat.length := Nat.div_lt_of_lt_mul (by rw [Nat.mul_comm]; exact hk)
  have hj : k.val % (bands.length + 6) < (parCols bands).length := by
    have : (parCols bands).length = bands.length + 6 := by simp [parCols]
    rw [this]; exact Nat.mod_lt _ (by omega)
  refine ⟨k.val / (bands.length + 6), k.val % (bands.length + 6), _, _,
    List.getElem?_eq_getElem hi, List.getElem?_eq_getElem hj, ?_⟩
  exact (Nat.div_add_mod' _ _).symm

/-- C86 (samples): whatever the sampler does, every value of every parameter of every source in the chain
catalog is strictly between the bounds given for that source and parameter. -/
theorem C86_samples (bands : List String) (ref : ℝ × ℝ) (bcat : List (String → ℝ × ℝ))
    (t : Bounded (boundsVectors bands ref bcat).1.length) (ht : prepareTransform bands ref bcat = some t)
    (hb : ∀ b ∈ bcat, ∀ c ∈ parCols bands, (b c).1 < (b c).2)
    (sample : (Fin (boundsVectors bands ref bcat).1.length → ℝ) →
      List (Fin (boundsVectors bands ref bcat).1.length → ℝ))
    (q : Fin (boundsVectors bands ref bcat).1.length → ℝ) (active : List Int) (cat : ChainCat ℝ)
    (h : makeChaincat (chainArr (runLmc (some t) sample q)) bands active ref
      ["ra", "dec", "q", "pa", "sersic", "rhalf"] = some cat) :
    cat.nsource = bcat.length ∧
    ∀ (s : Nat) (b : String → ℝ × ℝ), bcat[s]? = some b → ∀ it < cat.niter, ∀ c ∈ parCols bands,
      (b c).1 < cat.val s c it ∧ cat.val s c it < (b c).2 := by
  obtain ⟨c1, c2, c3, -, c5⟩ := Chain.C59_cells _ _ _ _ _ _ h
  obtain ⟨hl, -, -⟩ := C34_vectors bands ref bcat
  have hns : active.length = bcat.length := by
    have e : active.length * (bands.length + 6) = bcat.length * (bands.length + 6) := by
      rw [← hl]; exact c3
    exact Nat.eq_of_mul_eq_mul_right (by omega) e
  refine ⟨c1.trans hns, ?_⟩
  intro s b hs it hit c hc
  obtain ⟨j, hj⟩ := List.mem_iff_getElem?.mp hc
  have hsl : s < active.length := hns ▸ (List.getElem?_eq_some_iff.mp hs).1
  rw [c2] at hit
  obtain ⟨k1, k2⟩ := c5 s hsl it hit j c hj
  have hlt : s * (bands.length + 6) + j < (boundsVectors bands ref bcat).1.length := k1
  obtain ⟨t1, t2⟩ := transform_at bands ref bcat t ht s j b c hs hj hlt
  have hbs : ∀ i, t.lower i < t.upper i := by
    intro i
    obtain ⟨i', j', b', c', g1, g2, g3⟩ := slot bands ref bcat i
    have hlt' : i' * (bands.length + 6) + j' < (boundsVectors bands ref bcat).1.length := g3 ▸ i.isLt
    obtain ⟨u1, u2⟩ := transform_at bands ref bcat t ht i' j' b' c' g1 g2 hlt'
    have hi : i = ⟨_, hlt'⟩ := Fin.ext g3
    rw [hi, u1, u2]
    have := hb b' (List.mem_of_getElem? g1) c' (List.mem_of_getElem? g2)
    linarith
  obtain ⟨hin, -⟩ := Transform.C29_bijection t hbs
  -- the chain's entry is a value of the transform
  have hval : ∃ z, (chainArr (runLmc (some t) sample q)).at_ it (s * (bands.length + 6) + j) =
      t.transform z ⟨_, hlt⟩ := by
    simp only [chainArr, dif_pos hlt]
    have hit' : it < (runLmc (some t) sample q).length := hit
    rw [List.getD_eq_getElem?_getD, List.getElem?_eq_getElem hit']
    have hm : (runLmc (some t) sample q)[it] ∈ runLmc (some t) sample q := List.getElem_mem _
    obtain ⟨z, -, hz⟩ := List.mem_map.mp hm
    exact ⟨z, by rw [Option.getD_some, ← hz]; rfl⟩
  obtain ⟨z, hz⟩ := hval
  have hr : Chain.refOf ref c = offset ref c := rfl
  have e : (chainArr (runLmc (some t) sample q)).at_ it
      (s * (bands.length + ["ra", "dec", "q", "pa", "sersic", "rhalf"].length) + j) =
      t.transform z ⟨_, hlt⟩ := hz
  rw [k2, e, hr]
  obtain ⟨g1, g2⟩ := hin z ⟨_, hlt⟩
  rw [t1] at g1
  rw [t2] at g2
  constructor <;> linarith

/-- C86 (start): if the catalog is accepted by the bounds check, the sampler starts exactly at the catalog's
parameters. -/
theorem C86_start (bands : List String) (ref : ℝ × ℝ) (act : List Row) (bcat : List (String → ℝ × ℝ))
    (hlen : act.length = bcat.length) (hck : checkBounds (parCols bands) act bcat = .ok ())
    (t : Bounded (boundsVectors bands ref bcat).1.length) (ht : prepareTransform bands ref bcat = some t)
    (q : Fin (boundsVectors bands ref bcat).1.length → ℝ)
    (hq : ∀ (i j : Nat) (r : Row) (c : String) (h : i * (bands.length + 6) + j < (boundsVectors bands ref bcat).1.length),
      act[i]? = some r → (parCols bands)[j]? = some c → q ⟨_, h⟩ = r c - offset ref c) :
    t.transform (startOf (some t) q) = q := by
  have hin := ((C34_check _ _ _).1).mp hck
  have key : ∀ k, t.lower k < q k ∧ q k < t.upper k := by
    intro k
    obtain ⟨i, j, b, c, g1, g2, g3⟩ := slot bands ref bcat k
    have hlt : i * (bands.length + 6) + j < (boundsVectors bands ref bcat).1.length := g3 ▸ k.isLt
    obtain ⟨u1, u2⟩ := transform_at bands ref bcat t ht i j b c g1 g2 hlt
    have hk : k = ⟨_, hlt⟩ := Fin.ext g3
    have hi : i < act.length := hlen ▸ (List.getElem?_eq_some_iff.mp g1).1
    have hr : act[i]? = some act[i] := List.getElem?_eq_getElem hi
    obtain ⟨m1, m2⟩ := hin i _ b hr g1 c (List.mem_of_getElem? g2)
    rw [hk, u1, u2, hq i j _ c hlt hr g2]
    constructor <;> linarith
  obtain ⟨-, -, h3, -⟩ := Transform.C29_bijection t fun k => lt_trans (key k).1 (key k).2
  exact h3 q key

/-- C86 (final catalog): the catalog of any iteration of the chain, in particular the final one, passes the
bounds check again. -/
theorem C86_final (bands : List String) (ref : ℝ × ℝ) (bcat : List (String → ℝ × ℝ))
    (t : Bounded (boundsVectors bands ref bcat).1.length) (ht : prepareTransform bands ref bcat = some t)
    (hb : ∀ b ∈ bcat, ∀ c ∈ parCols bands, (b c).1 < (b c).2)
    (sample : (Fin (boundsVectors bands ref bcat).1.length → ℝ) →
      List (Fin (boundsVectors bands ref bcat).1.length → ℝ))
    (q : Fin (boundsVectors bands ref bcat).1.length → ℝ) (indices : List Int) (cat : ChainCat ℝ)
    (h : makeChaincat (chainArr (runLmc (some t) sample q)) bands indices ref
      ["ra", "dec", "q", "pa", "sersic", "rhalf"] = some cat)
    (active : Table ℝ) (hrow : active.nrow = indices.length) (hcols : ∀ c ∈ parCols bands, c ∈ active.names)
    (it : Int) (hlo : -(cat.niter : Int) ≤ it) (hhi : it < cat.niter) :
    ∃ out, Chain.getSampleCat cat it active = some out ∧ out.nrow = bcat.length ∧
      checkBounds (parCols bands) ((List.range out.nrow).map out.at_) bcat = .ok () := by
  obtain ⟨hns, hall⟩ := C86_samples bands ref bcat t ht hb sample q indices cat h
  obtain ⟨c1, -⟩ := Chain.C59_cells _ _ _ _ _ _ h
  obtain ⟨out, ho, hor, -, -, hov, -⟩ := Chain.C59_sample cat it active (hrow.trans c1.symm) hlo hhi
  have hnames : cat.names = parCols bands := by
    unfold makeChaincat at h
    simp only at h
    split at h
    · cases h
    split at h
    · cases h
    split at h
    · cases h
    split at h
    · cases h
    split at h
    · cases h
    obtain rfl := Option.some.inj h
    rfl
  have hn : out.nrow = bcat.length := by rw [hor, hrow, ← c1, hns]
  refine ⟨out, ho, hn, ?_⟩
  rw [(C34_check _ _ _).1]
  intro i r b hr hbi c hc
  rw [List.getElem?_map] at hr
  obtain ⟨i', hi', rfl⟩ := Option.map_eq_some_iff.mp hr
  obtain ⟨hlt, e⟩ := List.getElem?_eq_some_iff.mp hi'
  rw [List.getElem_range] at e
  subst e
  rw [hov i c (hcols c hc) (hnames ▸ hc)]
  refine hall i b hbi _ ?_ c hc
  split <;> omega

lemma linearBand_get (u m : ℝ) (b : String) (f s : List ℝ) (st : List Row × List (String → ℝ × ℝ)) (i : Nat) :
    (linearBand u m b f s st).1[i]? = st.1[i]?.map (fun r => Function.update r b (f.getD i 0)) ∧
    (linearBand u m b f s st).2[i]? =
      st.2[i]?.map (fun r => Function.update r b (fluxBoundPrec u m (s.getD i 0) (f.getD i 0))) := by
  simp [linearBand, List.getElem?_mapIdx]

lemma linear_get (u m : ℝ) (bs : List (String × List ℝ × List ℝ)) (hn : (bs.map (·.1)).Nodup) :
    ∀ (st : List Row × List (String → ℝ × ℝ)) (i : Nat) (r r0 : Row) (b b0 : String → ℝ × ℝ),
    st.1[i]? = some r0 → st.2[i]? = some b0 →
    (linearUpdate u m bs st).1[i]? = some r → (linearUpdate u m bs st).2[i]? = some b →
    (∀ p ∈ bs, r p.1 = p.2.1.getD i 0 ∧ b p.1 = fluxBoundPrec u m (p.2.2.getD i 0) (p.2.1.getD i 0)) ∧
    (∀ c, c ∉ bs.map (·.1) → r c = r0 c ∧ b c = b0 c) := by
  induction bs with
  | nil =>
    intro st i r r0 b b0 h1 h2 h3 h4
    rw [linearUpdate, h1] at h3
    rw [linearUpdate, h2] at h4
    cases h3; cases h4
    exact ⟨fun p hp => absurd hp (by simp), fun c _ => ⟨rfl, rfl⟩⟩
  | cons p rest ih =>
    obtain ⟨bn, f, s⟩ := p
    intro st i r r0 b b0 h1 h2 h3 h4
    obtain ⟨n1, n2⟩ := List.nodup_cons.mp hn
    obtain ⟨g1, g2⟩ := linearBand_get u m bn f s st i
    rw [h1, Option.map_some] at g1
    rw [h2, Option.map_some] at g2
    obtain ⟨i1, i2⟩ := ih n2 _ i r _ b _ g1 g2 h3 h4
    refine ⟨?_, ?_⟩
    · intro p hp
      rcases List.mem_cons.mp hp with rfl | hp
      · obtain ⟨k1, k2⟩ := i2 bn n1
        rw [k1, k2]
        simp
      · exact i1 p hp
    · intro c hc
      rw [List.map_cons, List.mem_cons, not_or] at hc
      obtain ⟨k1, k2⟩ := i2 c hc.2
      rw [k1, k2, Function.update_of_ne hc.1, Function.update_of_ne hc.1]
      exact ⟨rfl, rfl⟩

lemma linear_length (u m : ℝ) (bs : List (String × List ℝ × List ℝ)) :
    ∀ st : List Row × List (String → ℝ × ℝ), (linearUpdate u m bs st).1.length = st.1.length ∧
      (linearUpdate u m bs st).2.length = st.2.length := by
  induction bs with
  | nil => intro st; exact ⟨rfl, rfl⟩
  | cons p rest ih =>
    obtain ⟨bn, f, s⟩ := p
    intro st
    obtain ⟨h1, h2⟩ := ih (linearBand u m bn f s st)
    rw [linearUpdate, h1, h2]
    simp [linearBand]

/-- C86 (linear optimisation): after the linear flux optimisation of any bands, a catalog that was inside its
bounds is inside the new bounds too, if every new flux is positive or has a positive uncertainty; the other
columns and their bounds are unchanged. -/
theorem C86_linear (u m : ℝ) (hu : 0 < u) (hm : 0 < m) (bs : List (String × List ℝ × List ℝ))
    (hn : (bs.map (·.1)).Nodup) (cols : List String) (act : List Row) (bcat : List (String → ℝ × ℝ))
    (hlen : act.length = bcat.length) (hck : checkBounds cols act bcat = .ok ())
    (hs : ∀ p ∈ bs, ∀ i < act.length, 0 < p.2.2.getD i 0 ∨ 0 < p.2.1.getD i 0) :
    checkBounds cols (linearUpdate u m bs (act, bcat)).1 (linearUpdate u m bs (act, bcat)).2 = .ok () ∧
    (∀ (i : Nat) (r0 r : Row), act[i]? = some r0 → (linearUpdate u m bs (act, bcat)).1[i]? = some r →
      (∀ p ∈ bs, r p.1 = p.2.1.getD i 0) ∧ ∀ c, c ∉ bs.map (·.1) → r c = r0 c) := by
  have hin := ((C34_check _ _ _).1).mp hck
  obtain ⟨l1, l2⟩ := linear_length u m bs (act, bcat)
  constructor
  · rw [(C34_check _ _ _).1]
    intro i r b hr hb c hc
    have hi : i < act.length := l1 ▸ (List.getElem?_eq_some_iff.mp hr).1
    have h1 : act[i]? = some act[i] := List.getElem?_eq_getElem hi
    have h2 : bcat[i]? = some (bcat[i]'(hlen ▸ hi)) := List.getElem?_eq_getElem _
    obtain ⟨g1, g2⟩ := linear_get u m bs hn (act, bcat) i r _ b _ h1 h2 hr hb
    by_cases hcb : c ∈ bs.map (·.1)
    · obtain ⟨p, hp, rfl⟩ := List.mem_map.mp hcb
      obtain ⟨e1, e2⟩ := g1 p hp
      rw [e1, e2]
      exact Bounds.C33_prec_contain hu hm (hs p hp i hi)
    · obtain ⟨e1, e2⟩ := g2 c hcb
      rw [e1, e2]
      exact hin i _ _ h1 h2 c hc
  · intro i r0 r h1 hr
    have hi : i < act.length := (List.getElem?_eq_some_iff.mp h1).1
    have h2 : bcat[i]? = some (bcat[i]'(hlen ▸ hi)) := List.getElem?_eq_getElem _
    have hb : (linearUpdate u m bs (act, bcat)).2[i]? =
        some ((linearUpdate u m bs (act, bcat)).2[i]'(by rw [l2]; exact hlen ▸ hi)) := List.getElem?_eq_getElem _
    obtain ⟨g1, g2⟩ := linear_get u m bs hn (act, bcat) i r _ _ _ h1 h2 hr hb
    exact ⟨fun p hp => (g1 p hp).1, fun c hc => (g2 c hc).1⟩

/-- C86 (accepted bounds): a model is built exactly if some lower bound and some upper bound is not zero; so
bounds whose lower limits are all zero, although given, are rejected. -/
theorem C86_rejected (lo hi : List ℝ) :
    (posteriorInit lo hi).isSome ↔ (∃ x ∈ lo, x ≠ 0) ∧ ∃ x ∈ hi, x ≠ 0 := by
  unfold posteriorInit npAny
  split
  · rename_i h
    simp only [Option.isSome_none, Bool.false_eq_true, false_iff]
    rintro ⟨⟨x, hx, hx0⟩, ⟨y, hy, hy0⟩⟩
    rw [Bool.and_eq_false_iff] at h
    rcases h with h | h
    · rw [List.any_eq_false] at h
      exact h x hx (by simpa using hx0)
    · rw [List.any_eq_false] at h
      exact h y hy (by simpa using hy0)
  · rename_i h
    simp only [Option.isSome_some, true_iff]
    rw [Bool.not_eq_false, Bool.and_eq_true, List.any_eq_true, List.any_eq_true] at h
    obtain ⟨⟨x, hx, hx0⟩, ⟨y, hy, hy0⟩⟩ := h
    exact ⟨⟨x, hx, by simpa using hx0⟩, ⟨y, hy, by simpa using hy0⟩⟩

/-- A catalog of one source to which the C86 theorems apply. -/
example : ∃ t, prepareTransform ["F200W"] (10, 20)
      [fun c => if c = "ra" then (9, 11) else if c = "dec" then (19, 21) else (1, 3)] = some t ∧
    checkBounds (parCols ["F200W"]) [fun c => if c = "ra" then 10 else if c = "dec" then 20 else 2]
      [fun c => if c = "ra" then (9, 11) else if c = "dec" then (19, 21) else (1, 3)] = .ok () := by
  have h : (prepareTransform ["F200W"] (10, 20)
      [fun c => if c = "ra" then (9, 11) else if c = "dec" then (19, 21) else (1, 3)]).isSome := by
    unfold prepareTransform
    rw [C86_rejected]
    constructor
    · exact ⟨1, by simp [boundsVectors, Bounds.shiftRow], one_ne_zero⟩
    · exact ⟨3, by simp [boundsVectors, Bounds.shiftRow], by norm_num⟩
  obtain ⟨t, ht⟩ := Option.isSome_iff_exists.mp h
  refine ⟨t, ht, ?_⟩
  rw [(C34_check _ _ _).1]
  intro i r b hr hb c hc
  cases i with
  | zero =>
    obtain rfl := Option.some.inj hr
    obtain rfl := Option.some.inj hb
    dsimp only
    split
    · norm_num
    · split <;> norm_num
  | succ i => simp at hr

/-! ## C87: the highest-probability sample -/

lemma argmaxFrom_spec (xs : List (Option ℝ)) : ∀ (pre : List (Option ℝ)) (best : Nat) (m : ℝ),
    (∀ x ∈ pre, x ≠ none) → pre[best]? = some (some m) →
    (∀ (i : Nat) (y : ℝ), pre[i]? = some (some y) → y ≤ m ∧ (i < best → y < m)) →
    ((∀ x ∈ xs, x ≠ none) → ∃ v, (pre ++ xs)[argmaxFrom xs pre.length best (some m)]? = some (some v) ∧
      ∀ (i : Nat) (y : ℝ), (pre ++ xs)[i]? = some (some y) →
        y ≤ v ∧ (i < argmaxFrom xs pre.length best (some m) → y < v)) ∧
    (none ∈ xs → (pre ++ xs)[argmaxFrom xs pre.length best (some m)]? = some none ∧
      ∀ i < argmaxFrom xs pre.length best (some m), (pre ++ xs)[i]? ≠ some none) := by
  induction xs with
  | nil =>
    intro pre best m hpre hb hall
    refine ⟨fun _ => ?_, fun h => absurd h (by simp)⟩
    simp only [argmaxFrom, List.append_nil]
    exact ⟨m, hb, hall⟩
  | cons x xs ih =>
    intro pre best m hpre hb hall
    have hbl := (List.getElem?_eq_some_iff.mp hb).1
    cases x with
    | none =>
      refine ⟨fun h => absurd rfl (h none (by simp)), fun _ => ?_⟩
      simp only [argmaxFrom]
      refine ⟨by simp, ?_⟩
      intro i hi
      rw [List.getElem?_append_left hi, List.getElem?_eq_getElem hi]
      intro e
      exact hpre _ (List.getElem_mem hi) (Option.some.inj e)
    | some x =>
      have hpre' : ∀ y ∈ pre ++ [some x], y ≠ none := by
        intro y hy
        rcases List.mem_append.mp hy with hy | hy
        · exact hpre y hy
        · rw [List.mem_singleton.mp hy]; simp
      have hl : (pre ++ [some x]).length = pre.length + 1 := by simp
      have happ : pre ++ some x :: xs = (pre ++ [some x]) ++ xs := by simp
      have split : ∀ (i : Nat) (y : ℝ), (pre ++ [some x])[i]? = some (some y) →
          pre[i]? = some (some y) ∨ (i = pre.length ∧ y = x) := by
        intro i y hy
        by_cases hi : i < pre.length
        · rw [List.getElem?_append_left hi] at hy; exact Or.inl hy
        · rw [List.getElem?_append_right (by omega)] at hy
          have : i - pre.length = 0 := by
            by_contra hne
            rw [List.getElem?_eq_none (by simp; omega)] at hy
            cases hy
          rw [this] at hy
          simp only [List.getElem?_cons_zero, Option.some.injEq] at hy
          exact Or.inr ⟨by omega, hy.symm⟩
      simp only [argmaxFrom, List.mem_cons, reduceCtorEq, false_or]
      rw [happ, ← hl]
      by_cases hx : m < x
      · rw [if_pos hx]
        have hres := ih (pre ++ [some x]) pre.length x hpre' (by simp) (by
          intro i y hy
          rcases split i y hy with hy | ⟨rfl, rfl⟩
          · exact ⟨le_of_lt (lt_of_le_of_lt (hall i y hy).1 hx), fun _ => lt_of_le_of_lt (hall i y hy).1 hx⟩
          · exact ⟨le_rfl, fun h => absurd h (lt_irrefl _)⟩)
        exact ⟨fun h => hres.1 fun y hy => h y (Or.inr hy), hres.2⟩
      · rw [if_neg hx]
        have hres := ih (pre ++ [some x]) best m hpre' (by rw [List.getElem?_append_left hbl]; exact hb) (by
          intro i y hy
          rcases split i y hy with hy | ⟨rfl, rfl⟩
          · exact hall i y hy
          · exact ⟨not_lt.mp hx, fun h => absurd h (by omega)⟩)
        exact ⟨fun h => hres.1 fun y hy => h y (Or.inr hy), hres.2⟩

/-- C87: with one log-probability per iteration, none of them not-a-number, the sample returned is the chain's
entry at the first iteration with the largest log-probability. -/
theorem C87_map_partial (logp : List (Option ℝ)) (chain : Arr2 ℝ) (hlen : logp.length = chain.nrow)
    (hne : logp ≠ []) (hnan : none ∉ logp) :
    ∃ k v, k < chain.nrow ∧ getMap logp chain = some ((List.range chain.ncol).map (chain.at_ k)) ∧
      logp[k]? = some (some v) ∧
      ∀ (i : Nat) (y : ℝ), logp[i]? = some (some y) → y ≤ v ∧ (i < k → y < v) := by
  obtain ⟨x, xs, rfl⟩ := List.exists_cons_of_ne_nil hne
  cases x with
  | none => exact absurd (by simp) hnan
  | some x =>
    have h := (argmaxFrom_spec xs [some x] 0 x (by simp) rfl (by
      intro i y hy
      cases i with
      | zero => simp only [List.getElem?_cons_zero, Option.some.injEq] at hy
                exact ⟨hy.symm.le, fun h => absurd h (by omega)⟩
      | succ i => simp at hy)).1 (by
      intro y hy e
      exact hnan (by rw [e] at hy; exact List.mem_cons_of_mem _ hy))
    obtain ⟨v, h1, h2⟩ := h
    have hk : argmaxFrom xs 1 0 (some x) < chain.nrow := by
      rw [← hlen]; exact (List.getElem?_eq_some_iff.mp h1).1
    refine ⟨argmaxFrom xs 1 0 (some x), v, hk, ?_, h1, h2⟩
    simp only [getMap, argmax, Option.bind_some]
    rw [if_pos hk]

/-- C87 (structured): the catalog returned is the chain catalog at that same iteration. -/
theorem C87_structured_partial (logp : List (Option ℝ)) (cat : ChainCat ℝ) (active : Table ℝ)
    (hlen : logp.length = cat.niter) (hrow : active.nrow = cat.nsource) (hne : logp ≠ []) (hnan : none ∉ logp) :
    ∃ k v out, k < cat.niter ∧ getMapCat logp cat active = some out ∧ logp[k]? = some (some v) ∧
      (∀ (i : Nat) (y : ℝ), logp[i]? = some (some y) → y ≤ v ∧ (i < k → y < v)) ∧
      ∀ s d, d ∈ active.names → d ∈ cat.names → out.at_ s d = cat.val s d k := by
  obtain ⟨k, v, hk, hmap, hv, hall⟩ :=
    C87_map_partial logp ⟨cat.niter, 0, fun _ _ => 0⟩ hlen hne hnan
  obtain ⟨out, ho, -, -, -, h5, -⟩ := Chain.C59_sample cat (k : Int) active hrow (by omega) (by exact_mod_cast hk)
  have hk' : argmax logp = some k := by
    obtain ⟨x, xs, rfl⟩ := List.exists_cons_of_ne_nil hne
    cases x with
    | none => exact absurd (by simp) hnan
    | some x =>
      have h := (argmaxFrom_spec xs [some x] 0 x (by simp) rfl (by
        intro i y hy
        cases i with
        | zero => simp only [List.getElem?_cons_zero, Option.some.injEq] at hy
                  exact ⟨hy.symm.le, fun h => absurd h (by omega)⟩
        | succ i => simp at hy)).1 (by
        intro y hy e
        exact hnan (by rw [e] at hy; exact List.mem_cons_of_mem _ hy))
      obtain ⟨w, h1, h2⟩ := h
      simp only [argmax, Option.some.injEq]
      change argmaxFrom xs 1 0 (some x) = k
      have h1' : (some x :: xs)[argmaxFrom xs 1 0 (some x)]? = some (some w) := h1
      have h2' : ∀ (i : Nat) (y : ℝ), (some x :: xs)[i]? = some (some y) →
          y ≤ w ∧ (i < argmaxFrom xs 1 0 (some x) → y < w) := h2
      rcases lt_trichotomy (argmaxFrom xs 1 0 (some x)) k with h | h | h
      · have := (hall _ w h1').2 h
        have := (h2' k v hv).1
        linarith
      · exact h
      · have := (h2' k v hv).2 h
        have := (hall _ w h1').1
        linarith
  refine ⟨k, v, out, hk, ?_, hv, hall, ?_⟩
  · rw [getMapCat, hk']; exact ho
  · intro s d h1 h2
    rw [h5 s d h1 h2, if_pos (by omega)]; rfl

/-- C87 is refuted when some log-probability is not a number: the first such sample is returned as the most
probable one, however probable the others are. -/
theorem C87_nan_refuted (logp : List (Option ℝ)) (chain : Arr2 ℝ) (hlen : logp.length = chain.nrow)
    (hnan : none ∈ logp) :
    ∃ k < chain.nrow, logp[k]? = some none ∧
      getMap logp chain = some ((List.range chain.ncol).map (chain.at_ k)) := by
  obtain ⟨x, xs, rfl⟩ := List.exists_cons_of_ne_nil (List.ne_nil_of_mem hnan)
  cases x with
  | none =>
    refine ⟨0, by rw [← hlen]; simp, rfl, ?_⟩
    have e : argmaxFrom xs 1 0 none = 0 := by cases xs <;> rfl
    simp only [getMap, argmax, Option.bind_some, e]
    rw [if_pos (by rw [← hlen]; simp)]
  | some x =>
    have h := (argmaxFrom_spec xs [some x] 0 x (by simp) rfl (by
      intro i y hy
      cases i with
      | zero => simp only [List.getElem?_cons_zero, Option.some.injEq] at hy
                exact ⟨hy.symm.le, fun h => absurd h (by omega)⟩
      | succ i => simp at hy)).2 (by simpa using hnan)
    have hk : argmaxFrom xs 1 0 (some x) < chain.nrow := by
      rw [← hlen]; exact (List.getElem?_eq_some_iff.mp h.1).1
    refine ⟨_, hk, h.1, ?_⟩
    simp only [getMap, argmax, Option.bind_some]
    rw [if_pos hk]

/-- The second of three samples is the most probable. -/
example : getMap [some (-3), some (-1), some (-1)] ⟨3, 1, fun it _ => it⟩ = some [1] := by
  simp [getMap, argmax, argmaxFrom]

/-! ## C88: the mass matrix -/

variable {n : Nat}

open Matrix

lemma lowerSym_eq (c : Matrix (Fin n) (Fin n) ℝ) (h : c.IsHermitian) : lowerSym c = c := by
  ext i j
  unfold lowerSym
  split
  · rfl
  · have := congrFun (congrFun h i) j
    simpa [Matrix.conjTranspose_apply] using this

lemma add_hermitian (c : Matrix (Fin n) (Fin n) ℝ) (h : c.IsHermitian) (r : ℝ) : (c + r • 1).IsHermitian := by
  refine h.add ?_
  unfold Matrix.IsHermitian
  rw [Matrix.conjTranspose_smul, Matrix.conjTranspose_one]
  simp

/-- The loop adds the variance to the diagonal as often as needed, but at most as often as there are tries. -/
lemma regularize_spec (rv : ℝ) (m : Nat) : ∀ c : Matrix (Fin n) (Fin n) ℝ, c.IsHermitian →
    ∃ k ≤ m, regularize rv m c = c + (k * rv) • 1 ∧ (k < m → (c + (k * rv) • 1).PosDef) ∧
      ∀ j < k, ¬ (c + (j * rv) • 1).PosDef := by
  induction m with
  | zero =>
    intro c _
    exact ⟨0, le_rfl, by simp [regularize], fun h => absurd h (by omega), fun j hj => absurd hj (by omega)⟩
  | succ m ih =>
    intro c hc
    rw [regularize, lowerSym_eq c hc]
    by_cases hp : c.PosDef
    · rw [if_pos hp]
      exact ⟨0, by omega, by simp, fun _ => by simpa using hp, fun j hj => absurd hj (by omega)⟩
    · rw [if_neg hp]
      obtain ⟨k, h1, h2, h3, h4⟩ := ih (c + rv • 1) (add_hermitian c hc rv)
      have e : ∀ k : Nat, c + rv • (1 : Matrix (Fin n) (Fin n) ℝ) + (k * rv) • 1 = c + (((k + 1 : Nat) : ℝ) * rv) • 1 := by
        intro k
        rw [add_assoc, ← add_smul]
        congr 2
        push_cast
        ring
      refine ⟨k + 1, by omega, by rw [h2, e], fun h => by rw [← e]; exact h3 (by omega), ?_⟩
      intro j hj
      cases j with
      | zero => simpa using hp
      | succ j => rw [← e]; exact h4 j (by omega)

lemma posDef_more (c : Matrix (Fin n) (Fin n) ℝ) (r s : ℝ) (hrs : r ≤ s) (h : (c + r • 1).PosDef) :
    (c + s • 1).PosDef := by
  have e : c + s • (1 : Matrix (Fin n) (Fin n) ℝ) = (c + r • 1) + (s - r) • 1 := by
    rw [add_assoc, ← add_smul]; congr 2; ring
  rw [e]
  exact h.add_posSemidef (Matrix.PosSemidef.one.smul (sub_nonneg.mpr hrs))

/-- C88 (lower triangle): which matrix is tested and factorised is decided by the lower triangle alone; what a
covariance estimate holds above the diagonal has no effect on the number of repairs. -/
theorem C88_lower (c c' : Matrix (Fin n) (Fin n) ℝ) (h : ∀ i j, j ≤ i → c i j = c' i j) (rv : ℝ) (m : Nat) :
    (∀ i j, j ≤ i → regularize rv m c i j = regularize rv m c' i j) ∧
    ∀ j k : Fin n, j ≤ k → lowerSym c j k = c' k j ∧ lowerSym c k j = c' k j := by
  have hl : ∀ a a' : Matrix (Fin n) (Fin n) ℝ, (∀ i j, j ≤ i → a i j = a' i j) → lowerSym a = lowerSym a' := by
    intro a a' ha
    funext i j
    unfold lowerSym
    split
    · next hij => exact ha i j hij
    · next hij => exact ha j i (le_of_not_ge hij)
  constructor
  · induction m generalizing c c' with
    | zero => exact h
    | succ m ih =>
      rw [regularize, regularize, hl c c' h]
      split
      · exact h
      · apply ih
        intro i j hij
        rw [Matrix.add_apply, Matrix.add_apply, h i j hij]
  · intro j k hjk
    unfold lowerSym
    constructor
    · split
      · next hkj => rw [le_antisymm hjk hkj]; exact h k k le_rfl
      · exact h k j hjk
    · rw [if_pos hjk]; exact h k j hjk

/-- C88 (repair): for a symmetric matrix the mass matrix used is that matrix with `0.001` added to the diagonal
as often as needed, at most five times; it is positive definite exactly if five times suffice. -/
theorem C88_repair (c : Matrix (Fin n) (Fin n) ℝ) (hc : c.IsHermitian) :
    (∃ k ≤ 5, regularize 0.001 5 c = c + ((k : Nat) * (0.001 : ℝ)) • 1 ∧
      ∀ j < k, ¬ (c + ((j : Nat) * (0.001 : ℝ)) • 1).PosDef) ∧
    ((regularize 0.001 5 c).PosDef ↔ (c + (0.005 : ℝ) • 1).PosDef) ∧
    (c.PosDef → regularize 0.001 5 c = c) := by
  obtain ⟨k, h1, h2, h3, h4⟩ := regularize_spec 0.001 5 c hc
  refine ⟨⟨k, h1, h2, h4⟩, ?_, ?_⟩
  · constructor
    · intro h
      rw [h2] at h
      refine posDef_more c _ _ ?_ h
      have : (k : ℝ) ≤ 5 := by exact_mod_cast h1
      linarith
    · intro h
      rw [h2]
      rcases Nat.lt_or_ge k 5 with hk | hk
      · exact h3 hk
      · obtain rfl : k = 5 := le_antisymm h1 hk
        have e : ((5 : Nat) : ℝ) * 0.001 = 0.005 := by norm_num
        rw [e]; exact h
  · intro h
    cases k with
    | zero => simpa using h2
    | succ k => exact absurd (by simpa using h) (h4 0 (by omega))

lemma traceCov_eq (tr : List (Fin n → ℝ)) :
    traceCov tr = ((tr.length : ℝ) - 1)⁻¹ •
      (tr.map fun x => vecMulVec (x - traceMean tr) (star (x - traceMean tr))).sum := by
  ext i j
  unfold traceCov
  rw [Matrix.smul_apply]
  generalize traceMean tr = m
  have : ∀ l : List (Fin n → ℝ), (l.map fun x => vecMulVec (x - m) (star (x - m))).sum i j =
      (l.map fun x => (x i - m i) * (x j - m j)).sum := by
    intro l
    induction l with
    | nil => simp
    | cons x xs ih =>
      rw [List.map_cons, List.sum_cons, List.map_cons, List.sum_cons, Matrix.add_apply, ih]
      simp [vecMulVec_apply]
  rw [this, smul_eq_mul, div_eq_inv_mul]

lemma traceCov_posSemidef (tr : List (Fin n → ℝ)) (h : 2 ≤ tr.length) : (traceCov tr).PosSemidef := by
  rw [traceCov_eq]
  have hl : (2 : ℝ) ≤ tr.length := by exact_mod_cast h
  refine Matrix.PosSemidef.smul ?_ (inv_nonneg.mpr (by linarith))
  generalize traceMean tr = m
  induction tr with
  | nil => exact Matrix.PosSemidef.zero
  | cons x xs ih =>
    have : ∀ l : List (Fin n → ℝ), ((l.map fun x => vecMulVec (x - m) (star (x - m))).sum).PosSemidef := by
      intro l
      induction l with
      | nil => exact Matrix.PosSemidef.zero
      | cons y ys ih' =>
        rw [List.map_cons, List.sum_cons]
        exact (Matrix.posSemidef_vecMulVec_self_star _).add ih'
    exact this _

/-- C88: with a positive semidefinite matrix, with no matrix, or with a trace of at least two points, the mass
matrix is positive definite. A positive definite matrix is used unchanged; without matrix and trace it is the
identity; from a trace it is the sample covariance, with at most `0.001` added to the diagonal. The mean is the
starting point, or that of the trace. -/
theorem C88_mass_partial (mean : Fin n → ℝ) (cov : Option (Matrix (Fin n) (Fin n) ℝ))
    (trace : Option (List (Fin n → ℝ))) (full : Bool) (w : ℝ)
    (hcov : ∀ c, cov = some c → c.PosSemidef)
    (htr : ∀ tr, trace = some tr → 2 ≤ tr.length) :
    ∃ (m : Fin n → ℝ) (M : Matrix (Fin n) (Fin n) ℝ), M.PosDef ∧ (∀ i, 0 < M i i) ∧
      (full = true → getPot mean cov trace full w = .full m M w) ∧
      (full = false → getPot mean cov trace full w = .diag m (fun i => M i i) w) ∧
      (∀ c, cov = some c → m = mean ∧ (c.PosDef → M = c) ∧ (M = c ∨ M = c + (0.001 : ℝ) • 1)) ∧
      (cov = none → trace = none → m = mean ∧ M = 1) ∧
      (cov = none → ∀ tr, trace = some tr →
        (∀ i, m i = (tr.map fun x => x i).sum / tr.length) ∧
        ∃ e, (e = 0 ∨ e = (0.001 : ℝ)) ∧ ∀ i j, M i j =
          (tr.map fun x => (x i - m i) * (x j - m j)).sum / (tr.length - 1) + if i = j then e else 0) := by
  have psd : ∀ c : Matrix (Fin n) (Fin n) ℝ, c.PosSemidef → (regularize 0.001 5 c).PosDef ∧
      (regularize 0.001 5 c = c ∨ regularize 0.001 5 c = c + (0.001 : ℝ) • 1) := by
    intro c hc
    have pd : ∀ r : ℝ, 0 < r → (c + r • 1).PosDef := fun r hr =>
      Matrix.PosDef.posSemidef_add hc (Matrix.PosDef.one.smul hr)
    refine ⟨((C88_repair c hc.1).2.1).mpr (pd _ (by norm_num)), ?_⟩
    obtain ⟨k, h1, h2, h3, h4⟩ := regularize_spec 0.001 5 c hc.1
    rcases k with _ | _ | k
    · left; simpa using h2
    · right; simpa using h2
    · exact absurd (pd _ (by norm_num)) (h4 1 (by omega))
  cases cov with
  | some c =>
    obtain ⟨h1, h2⟩ := psd c (hcov c rfl)
    refine ⟨mean, regularize 0.001 5 c, h1, fun i => h1.diag_pos, ?_, ?_, ?_, ?_, ?_⟩
    · rintro rfl; rfl
    · rintro rfl; rfl
    · rintro c' hc'
      obtain rfl := Option.some.inj hc'
      exact ⟨rfl, (C88_repair c (hcov c rfl).1).2.2, h2⟩
    · intro h; cases h
    · intro h; cases h
  | none =>
    cases trace with
    | none =>
      have e : regularize 0.001 5 (1 : Matrix (Fin n) (Fin n) ℝ) = 1 :=
        (C88_repair 1 Matrix.PosDef.one.1).2.2 Matrix.PosDef.one
      refine ⟨mean, 1, Matrix.PosDef.one, fun i => Matrix.PosDef.one.diag_pos, ?_, ?_, ?_, ?_, ?_⟩
      · rintro rfl
        simp only [getPot, e, if_true]
      · rintro rfl
        simp only [getPot, e]
        rfl
      · intro c h; cases h
      · intro _ _; exact ⟨rfl, rfl⟩
      · intro _ tr h; cases h
    | some tr =>
      obtain ⟨h1, h2⟩ := psd _ (traceCov_posSemidef tr (htr tr rfl))
      refine ⟨traceMean tr, regularize 0.001 5 (traceCov tr), h1, fun i => h1.diag_pos, ?_, ?_, ?_, ?_, ?_⟩
      · rintro rfl; rfl
      · rintro rfl; rfl
      · intro c h; cases h
      · intro _ h; cases h
      · intro _ tr' h
        obtain rfl := Option.some.inj h
        refine ⟨fun i => rfl, ?_⟩
        rcases h2 with h2 | h2
        · refine ⟨0, Or.inl rfl, fun i j => ?_⟩
          rw [h2]; simp [traceCov]
        · refine ⟨0.001, Or.inr rfl, fun i j => ?_⟩
          rw [h2, Matrix.add_apply, Matrix.smul_apply, Matrix.one_apply]
          simp [traceCov]

/-- C88 is refuted for other matrices: with minus the identity as covariance the mass matrix handed to the
sampler is not positive definite, and no exception is raised. -/
theorem C88_refuted (mean : Fin (n + 1) → ℝ) (w : ℝ) :
    ∃ M : Matrix (Fin (n + 1)) (Fin (n + 1)) ℝ, getPot mean (some (-1)) none true w = .full mean M w ∧ ¬ M.PosDef := by
  refine ⟨regularize 0.001 5 (-1), rfl, ?_⟩
  have hh : (-1 : Matrix (Fin (n + 1)) (Fin (n + 1)) ℝ).IsHermitian := by
    unfold Matrix.IsHermitian
    rw [Matrix.conjTranspose_neg, Matrix.conjTranspose_one]
  rw [(C88_repair _ hh).2.1]
  intro h
  have := h.diag_pos (i := 0)
  rw [Matrix.add_apply, Matrix.smul_apply, Matrix.neg_apply, Matrix.one_apply_eq] at this
  norm_num at this

/-- The weight of the initial mass matrix is ten, or the smallest number of iterations of the active sources
where that is more. -/
theorem C88_weight (xs : List Nat) :
    sampleWeight none = some 10 ∧ (sampleWeight (some xs) = none ↔ xs = []) ∧
    ∀ w, sampleWeight (some xs) = some w → 10 ≤ w ∧ (w = 10 ∨ ∀ x ∈ xs, w ≤ x) ∧
      ((∀ x ∈ xs, 10 ≤ x) → w ∈ xs) := by
  refine ⟨rfl, by simp [sampleWeight], ?_⟩
  intro w hw
  unfold sampleWeight at hw
  obtain ⟨m, hm, rfl⟩ := Option.map_eq_some_iff.mp hw
  obtain ⟨m1, m2⟩ := List.min?_eq_some_iff.mp hm
  refine ⟨le_max_left _ _, ?_, ?_⟩
  · rcases le_total m 10 with h | h
    · left; exact max_eq_left h
    · right; intro x hx; rw [max_eq_right h]; exact m2 x hx
  · intro h
    rw [max_eq_right (h m m1)]; exact m1

/-! ## C89: what the optimiser reports -/

/-- C89: the point reported by the optimiser is strictly inside the bounds, and the reported function value is
minus the log-probability there; the reported log-probability is half the true one. -/
theorem C89_point_partial (g : Transform.Ingredients n) (t : Bounded n) (hb : ∀ i, t.lower i < t.upper i)
    (sampling : Bool) (minimize : ((Fin n → ℝ) → ℝ) → (Fin n → ℝ) → Fin n → ℝ) (q : Fin n → ℝ) :
    ∃ z, (runOpt (some t) (nllOf g t sampling) minimize q).chain = [t.transform z] ∧
      (∀ i, t.lower i < t.transform z i ∧ t.transform z i < t.upper i) ∧
      (runOpt (some t) (nllOf g t sampling) minimize q).fun_ = -(Transform.lnp g t sampling z) ∧
      (runOpt (some t) (nllOf g t sampling) minimize q).lnp = Transform.lnp g t sampling z / 2 := by
  obtain ⟨h1, -⟩ := Transform.C29_bijection t hb
  refine ⟨minimize (nllOf g t sampling) (startOf (some t) q), rfl, h1 _, ?_, ?_⟩
  · simp [runOpt, nllOf]
  · simp only [runOpt, nllOf]
    ring

/-- C89 is refuted: the reported log-probability is that of the reported point only where it is zero. -/
theorem C89_lnp_refuted (g : Transform.Ingredients n) (t : Bounded n) (sampling : Bool)
    (minimize : ((Fin n → ℝ) → ℝ) → (Fin n → ℝ) → Fin n → ℝ) (q : Fin n → ℝ)
    (hne : Transform.lnp g t sampling (minimize (nllOf g t sampling) (startOf (some t) q)) ≠ 0) :
    (runOpt (some t) (nllOf g t sampling) minimize q).lnp ≠
      Transform.lnp g t sampling (minimize (nllOf g t sampling) (startOf (some t) q)) := by
  intro h
  apply hne
  simp only [runOpt, nllOf] at h
  linarith

/-- A minimiser that returns its start, for a chi-square of four at every point. -/
example : (runOpt (some (⟨fun _ => 0, fun _ => 1⟩ : Bounded 1))
    (nllOf ⟨fun _ => [4], fun _ _ => 0, fun _ => 0, fun _ _ => 0⟩ ⟨fun _ => 0, fun _ => 1⟩ false)
    (fun _ s => s) (fun _ => 1 / 2)).lnp = -1 := by
  simp [runOpt, nllOf, Transform.lnp]
  norm_num

end Forcepho.Fitting
