import Verif.Region.Props

/-! # C55 for convex polygons: the separating axis theorem -/

set_option autoImplicit false
set_option linter.unusedSectionVars false

namespace Forcepho.Region

lemma exists_pred {α : Type} (poly : List α) (v : α) (hv : v ∈ poly) :
    ∃ w ∈ poly, (w, v) ∈ poly.zip (poly.drop 1 ++ poly.take 1) := by
  obtain ⟨i, hi, rfl⟩ := List.mem_iff_getElem.mp hv
  have hlen : (poly.drop 1 ++ poly.take 1).length = poly.length := by simp; omega
  have hget : ∀ j, (hj : j < poly.length) → (poly.zip (poly.drop 1 ++ poly.take 1))[j]'(by simp; omega) =
      (poly[j], (poly.drop 1 ++ poly.take 1)[j]) := fun j hj => List.getElem_zip
  rcases Nat.eq_zero_or_pos i with rfl | hpos
  · refine ⟨poly[poly.length - 1], List.getElem_mem _, ?_⟩
    have h1 := hget (poly.length - 1) (by omega)
    have h2 : (poly.drop 1 ++ poly.take 1)[poly.length - 1]'(by omega) = poly[0] := by
      rw [List.getElem_append_right (by simp)]
      simp
    rw [h2] at h1
    rw [← h1]
    exact List.getElem_mem _
  · refine ⟨poly[i - 1], List.getElem_mem _, ?_⟩
    have h1 := hget (i - 1) (by omega)
    have h2 : (poly.drop 1 ++ poly.take 1)[i - 1]'(by omega) = poly[i] := by
      rw [List.getElem_append_left (by simp; omega)]
      rw [List.getElem_drop]
      congr 1
      omega
    rw [h2] at h1
    rw [← h1]
    exact List.getElem_mem _

/-- A supporting line through two different vertices runs along an edge. -/
lemma support_edge {poly : List (ℝ × ℝ)} {σ : ℝ} (hσ : σ = 1 ∨ σ = -1)
    (hs : ∀ e ∈ edges poly, ∀ v ∈ poly, 0 ≤ σ * side v e)
    {a x h : ℝ × ℝ} (ha : a ∈ poly) (hx : x ∈ poly) (hxa : x ≠ a)
    (hsup : ∀ v ∈ poly, dot h v ≤ dot h a) (heq : dot h x = dot h a) :
    ∃ e ∈ edges poly, dot h e.2 = dot h e.1 := by
  obtain ⟨b, hb, e1⟩ := exists_succ poly a ha
  obtain ⟨c, hc, e2⟩ := exists_pred poly a ha
  have s1 := hs _ e1 x hx
  have s2 := hs _ e2 x hx
  have k1 := hsup b hb
  have k2 := hsup c hc
  have id1 : σ * (side c (a, b)) * (dot h x - dot h a) =
      σ * side x (c, a) * (dot h b - dot h a) + σ * side x (a, b) * (dot h c - dot h a) := by
    simp only [side, dot]; ring
  rw [heq, sub_self, mul_zero] at id1
  have t1 : σ * side x (c, a) * (dot h b - dot h a) ≤ 0 := mul_nonpos_of_nonneg_of_nonpos s2 (by linarith)
  have t2 : σ * side x (a, b) * (dot h c - dot h a) ≤ 0 := mul_nonpos_of_nonneg_of_nonpos s1 (by linarith)
  have z1 : σ * side x (c, a) * (dot h b - dot h a) = 0 := by linarith
  have z2 : σ * side x (a, b) * (dot h c - dot h a) = 0 := by linarith
  have hσ0 : σ ≠ 0 := by rcases hσ with rfl | rfl <;> norm_num
  by_cases hb0 : dot h b = dot h a
  · exact ⟨(a, b), e1, hb0⟩
  by_cases hc0 : dot h c = dot h a
  · exact ⟨(c, a), e2, hc0.symm⟩
  exfalso
  have w2 : side x (a, b) = 0 := by
    rcases mul_eq_zero.mp z2 with hh | hh
    · exact (mul_eq_zero.mp hh).resolve_left hσ0
    · exact absurd (by linarith) hc0
  -- then `b - a` is parallel to `x - a`
  have hd : (dot h b - dot h a) * ((x.1 - a.1) ^ 2 + (x.2 - a.2) ^ 2) =
      (dot h x - dot h a) * ((x.1 - a.1) * (b.1 - a.1) + (x.2 - a.2) * (b.2 - a.2)) +
      side x (a, b) * (h.1 * (x.2 - a.2) - h.2 * (x.1 - a.1)) := by
    simp only [side, dot]; ring
  rw [heq, sub_self, zero_mul, w2, zero_mul, add_zero] at hd
  rcases mul_eq_zero.mp hd with hh | hh
  · exact hb0 (by linarith)
  · apply hxa
    have a1 : x.1 - a.1 = 0 := by nlinarith [sq_nonneg (x.1 - a.1), sq_nonneg (x.2 - a.2)]
    have a2 : x.2 - a.2 = 0 := by nlinarith [sq_nonneg (x.1 - a.1), sq_nonneg (x.2 - a.2)]
    apply Prod.ext <;> linarith

/-- A solid polygon does not lie on a line. -/
lemma not_flat {poly : List (ℝ × ℝ)} (hsol : (interior (filled poly)).Nonempty) {u a : ℝ × ℝ}
    (hu : u ≠ 0) : ∃ v ∈ poly, dot u v ≠ dot u a := by
  by_contra hc
  push Not at hc
  obtain ⟨w, hw⟩ := hsol
  have hline : ∀ p ∈ filled poly, dot u p = dot u a := by
    have hconv : Convex ℝ {p : ℝ × ℝ | dot u p = dot u a} := by
      intro p hp q hq s t _ _ hst
      simp only [Set.mem_setOf_eq] at *
      have : dot u (s • p + t • q) = s * dot u p + t * dot u q := by simp [dot]; ring
      rw [this, hp, hq, ← add_mul, hst, one_mul]
    intro p hp
    exact convexHull_min (s := {p | p ∈ poly}) (fun p hp => hc p hp) hconv hp
  obtain ⟨g, hg⟩ : ∃ g : ℝ → ℝ × ℝ, g = fun t => (w.1 + t * u.1, w.2 + t * u.2) := ⟨_, rfl⟩
  have hgc : Continuous g := by rw [hg]; fun_prop
  have hg0 : g 0 = w := by rw [hg]; simp
  have hnear : ∀ᶠ t in nhds (0 : ℝ), g t ∈ filled poly := by
    apply hgc.continuousAt.eventually
    rw [hg0]
    exact mem_interior_iff_mem_nhds.mp hw
  obtain ⟨ε, hε, hball⟩ := Metric.eventually_nhds_iff.mp hnear
  have hmem := hball (y := ε / 2) (by rw [Real.dist_eq, sub_zero, abs_of_pos] <;> linarith)
  have h1 := hline _ hmem
  have h2 := hline w (interior_subset hw)
  have h3 : dot u (g (ε / 2)) = dot u w + ε / 2 * (u.1 ^ 2 + u.2 ^ 2) := by
    rw [hg]; simp only [dot]; ring
  have h4 : ε / 2 * (u.1 ^ 2 + u.2 ^ 2) = 0 := by linarith
  have h5 : u.1 ^ 2 + u.2 ^ 2 = 0 := (mul_eq_zero.mp h4).resolve_left (by linarith)
  apply hu
  apply Prod.ext
  · show u.1 = 0
    nlinarith [sq_nonneg u.1, sq_nonneg u.2]
  · show u.2 = 0
    nlinarith [sq_nonneg u.1, sq_nonneg u.2]

/-- A direction perpendicular to an edge is a multiple of its normal. -/
lemma normal_multiple {h : ℝ × ℝ} {e : (ℝ × ℝ) × (ℝ × ℝ)} (he : e.1 ≠ e.2) (hp : dot h e.2 = dot h e.1) :
    ∃ k : ℝ, ∀ p, dot h p = k * dot (normal e) p := by
  have hd : (e.2.1 - e.1.1) ^ 2 + (e.2.2 - e.1.2) ^ 2 ≠ 0 := by
    intro hc
    apply he
    have a1 : e.2.1 - e.1.1 = 0 := by nlinarith [sq_nonneg (e.2.1 - e.1.1), sq_nonneg (e.2.2 - e.1.2)]
    have a2 : e.2.2 - e.1.2 = 0 := by nlinarith [sq_nonneg (e.2.1 - e.1.1), sq_nonneg (e.2.2 - e.1.2)]
    apply Prod.ext <;> linarith
  refine ⟨(h.1 * (e.2.2 - e.1.2) - h.2 * (e.2.1 - e.1.1)) /
    ((e.2.1 - e.1.1) ^ 2 + (e.2.2 - e.1.2) ^ 2), ?_⟩
  intro p
  simp only [dot, normal] at hp ⊢
  field_simp
  linear_combination ((e.2.1 - e.1.1) * p.1 + (e.2.2 - e.1.2) * p.2) * hp

lemma orientation {poly : List (ℝ × ℝ)} (h : ConvexPolygon poly) :
    ∃ σ : ℝ, (σ = 1 ∨ σ = -1) ∧ ∀ e ∈ edges poly, ∀ v ∈ poly, 0 ≤ σ * side v e := by
  rcases h.sides with h1 | h1
  · exact ⟨1, Or.inl rfl, fun e he v hv => by rw [one_mul]; exact h1 e he v hv⟩
  · exact ⟨-1, Or.inr rfl, fun e he v hv => by have := h1 e he v hv; linarith⟩

lemma convex_ne_nil {poly : List (ℝ × ℝ)} (h : ConvexPolygon poly) : poly ≠ [] := by
  rintro rfl
  obtain ⟨x, hx⟩ := h.solid
  have := interior_subset hx
  simp [filled] at this

/-- C55 (convex polygons). For two convex polygons, in any orientation, the test answers yes exactly
when the filled polygons share a point. -/
theorem C55_convex (a b : List (ℝ × ℝ)) (ha : ConvexPolygon a) (hb : ConvexPolygon b) :
    polygonsOverlap a b = some true ↔ (filled a ∩ filled b).Nonempty := by
  have na := convex_ne_nil ha
  have nb := convex_ne_nil hb
  constructor
  · intro ht
    by_contra hcon
    rw [Set.not_nonempty_iff_eq_empty, ← Set.disjoint_iff_inter_eq_empty] at hcon
    have hcomp : IsCompact (filled a) := by
      have : Set.Finite {p | p ∈ a} := a.finite_toSet
      exact this.isCompact_convexHull ℝ
    obtain ⟨f, s, t, hf1, hst, hf2⟩ := geometric_hahn_banach_compact_closed (convex_convexHull ℝ _) hcomp
      (convex_convexHull ℝ _) (filled_closed b) hcon
    obtain ⟨g, hg⟩ : ∃ g : ℝ × ℝ, ∀ p, f p = dot g p := by
      refine ⟨(f (1, 0), f (0, 1)), ?_⟩
      intro p
      have : p = p.1 • ((1 : ℝ), (0 : ℝ)) + p.2 • ((0 : ℝ), (1 : ℝ)) := by simp
      conv_lhs => rw [this]
      rw [map_add, map_smul, map_smul, smul_eq_mul, smul_eq_mul, dot]
      ring
    -- extreme vertices
    obtain ⟨va, hva, hmax⟩ := Set.exists_max_image {p | p ∈ a} (dot g) a.finite_toSet
      (List.exists_mem_of_ne_nil a na)
    obtain ⟨vb, hvb, hmin⟩ := Set.exists_min_image {p | p ∈ b} (dot g) b.finite_toSet
      (List.exists_mem_of_ne_nil b nb)
    have hgw : 0 < dot g vb - dot g va := by
      have h1 := hf1 va (subset_convexHull ℝ _ hva)
      have h2 := hf2 vb (subset_convexHull ℝ _ hvb)
      rw [hg] at h1 h2
      linarith
    -- the direction across the line joining them
    obtain ⟨w, hw⟩ : ∃ w : ℝ × ℝ, w = (-(vb.2 - va.2), vb.1 - va.1) := ⟨_, rfl⟩
    have hw0 : w ≠ 0 := by
      intro hc
      rw [hw] at hc
      have c1 := congrArg Prod.fst hc
      have c2 := congrArg Prod.snd hc
      simp only [Prod.fst_zero, Prod.snd_zero] at c1 c2
      have : dot g vb - dot g va = g.1 * (vb.1 - va.1) + g.2 * (vb.2 - va.2) := by simp only [dot]; ring
      rw [this, c2, show vb.2 - va.2 = 0 by linarith] at hgw
      simp at hgw
    have hwperp : ∀ k : ℝ, dot (k * w.1, k * w.2) vb - dot (k * w.1, k * w.2) va = 0 := by
      intro k; rw [hw]; simp only [dot]; ring
    obtain ⟨v0, hv0, hv0w⟩ := not_flat ha.solid (a := va) hw0
    -- constraints
    obtain ⟨cs, hcs⟩ : ∃ cs : List (ℝ × ℝ), cs = a.map (fun v => (va.1 - v.1, va.2 - v.2)) ++
      b.map (fun v => (v.1 - vb.1, v.2 - vb.2)) := ⟨_, rfl⟩
    have hcg : ∀ c ∈ cs, 0 ≤ dot g c := by
      intro c hc
      rw [hcs, List.mem_append, List.mem_map, List.mem_map] at hc
      rcases hc with ⟨v, hv, rfl⟩ | ⟨v, hv, rfl⟩
      · have := hmax v hv
        simp only [dot] at this ⊢
        linarith
      · have := hmin v hv
        simp only [dot] at this ⊢
        linarith
    obtain ⟨u, huw, hu0, c0, hc0, hc0u⟩ : ∃ u : ℝ × ℝ, (dot u vb - dot u va = 0) ∧ u ≠ 0 ∧
        ∃ c ∈ cs, dot u c < 0 := by
      have hmemc : (va.1 - v0.1, va.2 - v0.2) ∈ cs := by
        rw [hcs]; exact List.mem_append_left _ (List.mem_map_of_mem (f := fun v : ℝ × ℝ => (va.1 - v.1, va.2 - v.2)) hv0)
      rcases lt_or_gt_of_ne hv0w with hh | hh
      · refine ⟨(-1 * w.1, -1 * w.2), hwperp (-1), ?_, _, hmemc, ?_⟩
        · intro hc
          apply hw0
          have c1 := congrArg Prod.fst hc
          have c2 := congrArg Prod.snd hc
          simp only [Prod.fst_zero, Prod.snd_zero] at c1 c2
          apply Prod.ext
          · show w.1 = 0
            linarith
          · show w.2 = 0
            linarith
        · simp only [dot] at hh ⊢; linarith
      · refine ⟨(1 * w.1, 1 * w.2), hwperp 1, by simpa using hw0, _, hmemc, ?_⟩
        simp only [dot] at hh ⊢; linarith
    obtain ⟨c, ⟨hc, hcu⟩, hcmin⟩ := Set.exists_min_image {c | c ∈ cs ∧ dot u c < 0}
      (fun c => dot g c / (-dot u c)) (cs.finite_toSet.subset fun c hc => hc.1) ⟨c0, hc0, hc0u⟩
    obtain ⟨τ, hτ⟩ : ∃ τ, τ = dot g c / (-dot u c) := ⟨_, rfl⟩
    have hτ0 : 0 ≤ τ := by
      rw [hτ]; exact div_nonneg (hcg c hc) (by linarith)
    obtain ⟨h, hh⟩ : ∃ h : ℝ × ℝ, ∀ p, dot h p = dot g p + τ * dot u p := by
      refine ⟨(g.1 + τ * u.1, g.2 + τ * u.2), ?_⟩
      intro p; simp only [dot]; ring
    have hhc : ∀ k ∈ cs, 0 ≤ dot h k := by
      intro k hk
      rw [hh]
      by_cases hku : dot u k < 0
      · have h1 := hcmin k ⟨hk, hku⟩
        rw [← hτ, le_div_iff₀ (by linarith)] at h1
        linarith
      · have := hcg k hk
        have : 0 ≤ τ * dot u k := mul_nonneg hτ0 (by linarith)
        linarith [hcg k hk]
    have hhc0 : dot h c = 0 := by
      rw [hh, hτ]
      have : dot u c ≠ 0 := ne_of_lt hcu
      field_simp
      ring
    have hhw : 0 < dot h vb - dot h va := by
      rw [hh, hh]
      have : dot g vb + τ * dot u vb - (dot g va + τ * dot u va) =
        (dot g vb - dot g va) + τ * (dot u vb - dot u va) := by ring
      rw [this, huw]
      linarith
    have supA : ∀ v ∈ a, dot h v ≤ dot h va := by
      intro v hv
      have := hhc (va.1 - v.1, va.2 - v.2) (by
        rw [hcs]; exact List.mem_append_left _ (List.mem_map_of_mem (f := fun v : ℝ × ℝ => (va.1 - v.1, va.2 - v.2)) hv))
      simp only [dot] at this ⊢
      linarith
    have supB : ∀ v ∈ b, dot h vb ≤ dot h v := by
      intro v hv
      have := hhc (v.1 - vb.1, v.2 - vb.2) (by
        rw [hcs]; exact List.mem_append_right _ (List.mem_map_of_mem (f := fun v : ℝ × ℝ => (v.1 - vb.1, v.2 - vb.2)) hv))
      simp only [dot] at this ⊢
      linarith
    -- an edge along the touching line
    obtain ⟨e, he, hperp, hlen⟩ : ∃ e ∈ edges a ++ edges b, dot h e.2 = dot h e.1 ∧ e.1 ≠ e.2 := by
      have hc' := hc
      rw [hcs, List.mem_append, List.mem_map, List.mem_map] at hc'
      rcases hc' with ⟨v, hv, rfl⟩ | ⟨v, hv, rfl⟩
      · obtain ⟨σ, hσ, hs⟩ := orientation ha
        have hne : v ≠ va := by
          rintro rfl
          simp [dot] at hcu
        obtain ⟨e, he, hp⟩ := support_edge hσ hs hva hv hne supA (by
          simp only [dot] at hhc0 ⊢; linarith)
        exact ⟨e, List.mem_append_left _ he, hp, ha.length e he⟩
      · obtain ⟨σ, hσ, hs⟩ := orientation hb
        have hne : v ≠ vb := by
          rintro rfl
          simp [dot] at hcu
        obtain ⟨e, he, hp⟩ := support_edge (h := (-h.1, -h.2)) hσ hs hvb hv hne
          (by intro x hx; have := supB x hx; simp only [dot] at this ⊢; linarith)
          (by simp only [dot] at hhc0 ⊢; linarith)
        exact ⟨e, List.mem_append_right _ he, by simp only [dot] at hp ⊢; linarith, hb.length e he⟩
    obtain ⟨k, hk⟩ := normal_multiple hlen hperp
    have hsep : ∀ p ∈ a, ∀ q ∈ b, k * dot (normal e) p < k * dot (normal e) q := by
      intro p hp q hq
      rw [← hk, ← hk]
      linarith [supA p hp, supB q hq]
    have hno : polygonsOverlap a b = some false := by
      rw [overlap_false_iff na nb]
      refine ⟨e, he, ?_⟩
      rcases lt_trichotomy k 0 with h0 | h0 | h0
      · right
        intro p hp q hq
        have := hsep p hp q hq
        by_contra hc
        push Not at hc
        nlinarith
      · exfalso
        have := hsep va hva vb hvb
        rw [h0] at this
        simp at this
      · left
        intro p hp q hq
        exact lt_of_mul_lt_mul_left (hsep p hp q hq) h0.le
    rw [hno] at ht
    cases ht
  · intro hne
    rcases overlap_total a b na nb with h | h
    · exact h
    · exact absurd (C55_sound a b h) (Set.not_disjoint_iff_nonempty_inter.mpr hne)

/-- A case with two convex polygons that are not aligned rectangles. -/
lemma triangle_convex : ConvexPolygon [((0 : ℝ), (0 : ℝ)), (2, 0), (0, 2)] where
  sides := by
    left
    intro e he v hv
    simp [edges] at he hv
    rcases he with rfl | rfl | rfl <;> rcases hv with rfl | rfl | rfl <;> norm_num [side]
  length := by
    intro e he
    simp [edges] at he
    rcases he with rfl | rfl | rfl <;> simp
  solid := by
    refine ⟨(1 / 2, 1 / 2), strict_interior _ (by simp) _ 1 ?_⟩
    intro e he
    simp [edges] at he
    rcases he with rfl | rfl | rfl <;> norm_num [side]

end Forcepho.Region
