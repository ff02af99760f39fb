import Verif.Device.Subtract

/-!
# C47 on the CPU, repeated and degenerate calls
-/

set_option autoImplicit false
set_option linter.unusedSectionVars false

namespace Forcepho.Device

section
variable {S : Type} (ops : Ops S)

lemma swapPtrs_inj (p : Name → Option Nat) (h : ∀ n k a, p n = some a → p k = some a → n = k) :
    ∀ n k a, swapPtrs p n = some a → swapPtrs p k = some a → n = k := by
  let σ : Name → Name := fun n =>
    if n = Name.data then Name.residual else if n = Name.residual then Name.data else n
  have hσ : ∀ n, σ (σ n) = n := by intro n; cases n <;> rfl
  have hp : ∀ n, swapPtrs p n = p (σ n) := by intro n; cases n <;> rfl
  intro n k a hn hk
  rw [hp] at hn hk
  have := h _ _ a hn hk
  rw [← hσ n, this, hσ k]

/-- Attributes refer to distinct arrays. -/
structure Cpu.Distinct (c : Cpu) : Prop where
  inj : ∀ n k a, c.attr n = some a → c.attr k = some a → n = k
  lt : ∀ n a, c.attr n = some a → a < c.next

lemma setAttr_distinct (c : Cpu) (h : c.Distinct) (n : Name) (x : Arr) : (c.setAttr n x).Distinct := by
  have hfr : ∀ k, c.attr k ≠ some c.next := fun k hk => absurd (h.lt k _ hk) (by omega)
  constructor
  · intro j k a hj hk
    simp only [Cpu.setAttr, Function.update_apply] at hj hk
    by_cases h1 : j = n <;> by_cases h2 : k = n
    · rw [h1, h2]
    · rw [if_pos h1] at hj
      rw [if_neg h2] at hk
      obtain rfl := Option.some.inj hj
      exact absurd hk (hfr k)
    · rw [if_pos h2] at hk
      rw [if_neg h1] at hj
      obtain rfl := Option.some.inj hk
      exact absurd hj (hfr j)
    · rw [if_neg h1] at hj
      rw [if_neg h2] at hk
      exact h.inj j k a hj hk
  · intro k a hk
    simp only [Cpu.setAttr, Function.update_apply] at hk ⊢
    by_cases h1 : k = n
    · rw [if_pos h1] at hk
      obtain rfl := Option.some.inj hk
      omega
    · rw [if_neg h1] at hk
      have := h.lt k a hk
      omega

lemma setAttrs_facts (A : Name → Arr) (L : List Name) : L.Nodup → ∀ c : Cpu, c.Distinct →
    (L.foldl (fun c n => c.setAttr n (A n)) c).Distinct ∧
    (∀ n ∉ L, (L.foldl (fun c n => c.setAttr n (A n)) c).attr n = c.attr n) ∧
    (∀ n ∈ L, ∃ a, (L.foldl (fun c n => c.setAttr n (A n)) c).attr n = some a ∧
      (L.foldl (fun c n => c.setAttr n (A n)) c).mem a = A n) ∧
    (∀ a < c.next, (L.foldl (fun c n => c.setAttr n (A n)) c).mem a = c.mem a) ∧
    (L.foldl (fun c n => c.setAttr n (A n)) c).ptrs = c.ptrs ∧
    (L.foldl (fun c n => c.setAttr n (A n)) c).struct = c.struct ∧
    (L.foldl (fun c n => c.setAttr n (A n)) c).dirty = c.dirty ∧
    c.next ≤ (L.foldl (fun c n => c.setAttr n (A n)) c).next := by
  induction L with
  | nil => intro _ c h; simp [h]
  | cons n rest ih =>
    intro hnd c h
    rw [List.nodup_cons] at hnd
    rw [List.foldl_cons]
    obtain ⟨i1, i2, i3, i4, i5, i6, i7, i8⟩ := ih hnd.2 (c.setAttr n (A n)) (setAttr_distinct c h n (A n))
    have hnext : (c.setAttr n (A n)).next = c.next + 1 := rfl
    refine ⟨i1, ?_, ?_, ?_, i5, i6, i7, by omega⟩
    · intro k hk
      rw [List.mem_cons, not_or] at hk
      rw [i2 k hk.2]
      exact Function.update_of_ne hk.1 _ _
    · intro k hk
      rcases List.mem_cons.mp hk with rfl | hk
      · refine ⟨c.next, ?_, ?_⟩
        · rw [i2 k hnd.1]; exact Function.update_self ..
        · rw [i4 c.next (by omega)]; exact Function.update_self ..
      · exact i3 k hk
    · intro a ha
      rw [i4 a (by omega)]
      exact Function.update_of_ne (by omega) _ _

/-- The CPU device is ready to evaluate the scene `sc` against the data `d`. -/
structure CReady (pix : Name → Arr) (sc : List S) (d : Arr) (c : Cpu) : Prop where
  dist : c.Distinct
  data : ∃ a, c.attr Name.data = some a ∧ c.mem a = d
  res : ∃ r, c.attr Name.residual = some r
  other : ∀ n, n ≠ Name.data → n ≠ Name.residual →
    ∃ a, c.attr n = some a ∧ c.mem a = wanted ops pix sc n
  ptrs : ∃ p, c.ptrs = some p ∧ c.struct = some p ∧ ∀ n, isPtr n = true → p n = c.attr n
  cnt : c.counts Name.n_sources = ops.packed sc Name.n_sources ∧
    c.counts Name.n_radii = ops.packed sc Name.n_radii

lemma live_attr (c : Cpu) (n : Name) (a : Nat) (h : c.attr n = some a) : c.live a = true := by
  unfold Cpu.live
  rw [List.any_eq_true]
  exact ⟨n, mem_names n, by simp [h]⟩

lemma not_isPtr (n : Name) (h : ¬ isPtr n = true) : n = Name.n_sources ∨ n = Name.n_radii := by
  cases n <;> simp [isPtr] at h <;> simp

lemma CReady.attr_some {pix : Name → Arr} {sc : List S} {d : Arr} {c : Cpu}
    (h : CReady ops pix sc d c) (n : Name) : ∃ a, c.attr n = some a := by
  by_cases h1 : n = Name.data
  · obtain ⟨a, ha, _⟩ := h.data; exact ⟨a, h1 ▸ ha⟩
  · by_cases h2 : n = Name.residual
    · obtain ⟨r, hr⟩ := h.res; exact ⟨r, h2 ▸ hr⟩
    · obtain ⟨a, ha, _⟩ := h.other n h1 h2; exact ⟨a, ha⟩

lemma evaluate_cready (pix : Name → Arr) (sc : List S) (d : Arr) (c : Cpu)
    (h : CReady ops pix sc d c) :
    ∃ c', c.evaluate ops (ops.proposal sc) = (none, c') ∧ CReady ops pix sc d c' ∧
      c'.dirty = c.dirty ∧
      ∃ r, c'.attr Name.residual = some r ∧ c'.mem r = d - image ops pix sc := by
  obtain ⟨p, hp, hs, hpa⟩ := h.ptrs
  obtain ⟨r, hr⟩ := h.res
  obtain ⟨ad, had, hmd⟩ := h.data
  have hpr : p Name.residual = some r := by rw [hpa _ rfl]; exact hr
  have hpd : p Name.data = some ad := by rw [hpa _ rfl]; exact had
  have henv : (fun n => if n = Name.data ∨ n = Name.residual then (fun _ => 0 : Arr) else
      if isPtr n = true then c.load (p n) else c.counts n) =
      fun n => if n = Name.data ∨ n = Name.residual then fun _ => 0 else wanted ops pix sc n := by
    funext n
    by_cases hn : n = Name.data ∨ n = Name.residual
    · rw [if_pos hn, if_pos hn]
    · rw [if_neg hn, if_neg hn]
      push Not at hn
      by_cases hi : isPtr n = true
      · rw [if_pos hi, hpa n hi]
        obtain ⟨a, ha, hma⟩ := h.other n hn.1 hn.2
        rw [ha]; exact hma
      · rw [if_neg hi]
        rcases not_isPtr n hi with rfl | rfl
        · rw [h.cnt.1]; rfl
        · rw [h.cnt.2]; rfl
  have hev : c.evaluate ops (ops.proposal sc) =
      (none, { c with mem := Function.update c.mem r (d - image ops pix sc) }) := by
    unfold Cpu.evaluate
    rw [hs]
    simp only
    rw [if_neg ?_]
    · rw [hpr]
      simp only
      rw [henv]
      simp only [isPtr, if_true, hpd, Cpu.load, hmd]
      rfl
    · simp only [List.any_eq_true, List.mem_filter, not_exists, not_and]
      rintro n ⟨_, hn⟩
      rw [hpa n hn]
      obtain ⟨a, ha⟩ := h.attr_some ops n
      rw [ha]
      simp [live_attr c n a ha]
  have hmem : ∀ a, a ≠ r → Function.update c.mem r (d - image ops pix sc) a = c.mem a :=
    fun a ha => Function.update_of_ne ha _ _
  refine ⟨_, hev, ⟨⟨h.dist.inj, h.dist.lt⟩, ⟨ad, had, ?_⟩, ⟨r, hr⟩, ?_, ⟨p, hp, hs, hpa⟩, h.cnt⟩, rfl,
    r, hr, Function.update_self ..⟩
  · show Function.update c.mem r _ ad = d
    rw [hmem ad ?_]
    · exact hmd
    · rintro rfl
      have := h.dist.inj _ _ _ had hr
      cases this
  · intro n h1 h2
    obtain ⟨a, ha, hma⟩ := h.other n h1 h2
    refine ⟨a, ha, ?_⟩
    show Function.update c.mem r _ a = _
    rw [hmem a ?_]
    · exact hma
    · rintro rfl
      exact h2 (h.dist.inj _ _ _ ha hr)

/-- Filling the structure. -/
lemma cpu_sendStruct (c : Cpu) (p : Name → Option Nat) (hp : c.ptrs = some p)
    (h1 : ∀ n, isPtr n = true → p n ≠ none) (h2 : c.attr Name.n_sources ≠ none)
    (h3 : c.attr Name.n_radii ≠ none) :
    c.sendStruct = (none, { c with
      struct := some p
      counts := fun n => c.load (c.attr n) }) := by
  unfold Cpu.sendStruct
  rw [hp]
  simp only
  have k1 : ¬ ((names.filter fun n => isPtr n).any fun n => (p n).isNone) = true := by
    simp only [List.any_eq_true, List.mem_filter, not_exists, not_and]
    rintro n ⟨_, hn⟩
    simpa using h1 n hn
  have k2 : ¬ ((c.attr Name.n_sources).isNone || (c.attr Name.n_radii).isNone) = true := by
    simp only [Bool.or_eq_true, Option.isNone_iff_eq_none, not_or]
    exact ⟨h2, h3⟩
  rw [if_neg k1, if_neg k2]

lemma swap_cready (pix : Name → Arr) (sc sc' : List S) (d d' : Arr) (c : Cpu) (hne : sc' ≠ [])
    (h : CReady ops pix sc d c) (r : Nat) (hr : c.attr Name.residual = some r) (hd' : c.mem r = d') :
    ∃ c2 c3, c.packMeta ops sc' = (none, c2) ∧ c2.swap = (none, c3) ∧ CReady ops pix sc' d' c3 ∧
      c3.dirty = c.dirty := by
  obtain ⟨p, hp, hs, hpa⟩ := h.ptrs
  obtain ⟨ad, had, hmd⟩ := h.data
  obtain ⟨i1, i2, i3, i4, i5, i6, i7, i8⟩ := setAttrs_facts (fun n => ops.packed sc' n) metaNames
    metaNames_nodup c h.dist
  set c2 := metaNames.foldl (fun c n => c.setAttr n (ops.packed sc' n)) c with hc2
  have hpk : c.packMeta ops sc' = (none, c2) := by unfold Cpu.packMeta; rw [if_neg hne]
  have hd2 : c2.attr Name.data = some ad := by rw [i2 _ (by decide)]; exact had
  have hr2 : c2.attr Name.residual = some r := by rw [i2 _ (by decide)]; exact hr
  have hsome : ∀ n, ∃ a, c2.attr n = some a := by
    intro n
    by_cases hm : n ∈ metaNames
    · obtain ⟨a, ha, _⟩ := i3 n hm; exact ⟨a, ha⟩
    · rw [i2 n hm]; exact h.attr_some ops n
  set p1 : Name → Option Nat := fun n => if n ∈ metaNames ∧ isPtr n = true then c2.attr n else p n
    with hp1
  have hp1a : ∀ n, isPtr n = true → p1 n = c2.attr n := by
    intro n hn
    show (if n ∈ metaNames ∧ isPtr n = true then c2.attr n else p n) = _
    by_cases hm : n ∈ metaNames
    · rw [if_pos ⟨hm, hn⟩]
    · rw [if_neg (fun hc => hm hc.1), hpa n hn, i2 n hm]
  have hq : ∀ n, isPtr n = true → swapPtrs p1 n = swapPtrs c2.attr n := by
    intro n hn
    unfold swapPtrs
    by_cases h1 : n = Name.data
    · rw [if_pos h1, if_pos h1]; exact hp1a _ rfl
    · rw [if_neg h1, if_neg h1]
      by_cases h2 : n = Name.residual
      · rw [if_pos h2, if_pos h2]; exact hp1a _ rfl
      · rw [if_neg h2, if_neg h2]; exact hp1a n hn
  have hsome' : ∀ n, ∃ a, swapPtrs c2.attr n = some a := by
    intro n
    unfold swapPtrs
    by_cases h1 : n = Name.data
    · rw [if_pos h1]; exact hsome _
    · rw [if_neg h1]
      by_cases h2 : n = Name.residual
      · rw [if_pos h2]; exact hsome _
      · rw [if_neg h2]; exact hsome n
  set c3 : Cpu := { c2 with ptrs := some (swapPtrs p1), attr := swapPtrs c2.attr } with hc3
  have hsome3 : ∀ n, c3.attr n ≠ none := by
    intro n
    have : c3.attr n = swapPtrs c2.attr n := rfl
    obtain ⟨a, ha⟩ := hsome' n
    rw [this, ha]; simp
  have hss := cpu_sendStruct c3 (swapPtrs p1) rfl
    (fun n hn => by rw [hq n hn]; obtain ⟨a, ha⟩ := hsome' n; rw [ha]; simp)
    (hsome3 Name.n_sources) (hsome3 Name.n_radii)
  have hpr : p Name.residual = some r := by rw [hpa _ rfl]; exact hr
  have hsw : c2.swap = c3.sendStruct := by
    unfold Cpu.swap
    rw [i5, hp]
    simp only
    rw [if_neg (by simp [hpr]), if_neg ?_]
    simp only [List.any_eq_true, not_exists, not_and]
    intro n _
    obtain ⟨a, ha⟩ := hsome n
    rw [ha]; simp
  refine ⟨c2, _, hpk, hsw.trans hss, ⟨⟨?_, ?_⟩, ⟨r, ?_, ?_⟩, ⟨ad, ?_⟩, ?_, ⟨swapPtrs p1, rfl, rfl, hq⟩,
    ?_, ?_⟩, i7⟩
  · intro n k a hn hk
    exact swapPtrs_inj c2.attr i1.inj n k a hn hk
  · intro n a hn
    have hn' : swapPtrs c2.attr n = some a := hn
    show a < c2.next
    unfold swapPtrs at hn'
    split at hn'
    · exact i1.lt _ _ hn'
    · split at hn'
      · exact i1.lt _ _ hn'
      · exact i1.lt _ _ hn'
  · show swapPtrs c2.attr Name.data = _
    simp [swapPtrs, hr2]
  · show c2.mem r = d'
    rw [i4 r (h.dist.lt _ _ hr)]; exact hd'
  · show swapPtrs c2.attr Name.residual = _
    simp [swapPtrs, hd2]
  · intro n h1 h2
    have hsn : swapPtrs c2.attr n = c2.attr n := by simp [swapPtrs, h1, h2]
    by_cases hm : n ∈ metaNames
    · obtain ⟨a, ha, hma⟩ := i3 n hm
      refine ⟨a, hsn.trans ha, ?_⟩
      show c2.mem a = _
      rw [hma]; unfold wanted; rw [if_pos hm]
    · obtain ⟨a, ha, hma⟩ := h.other n h1 h2
      refine ⟨a, hsn.trans ((i2 n hm).trans ha), ?_⟩
      show c2.mem a = _
      rw [i4 a (h.dist.lt _ _ ha), hma]
      unfold wanted; rw [if_neg hm, if_neg hm]
  · obtain ⟨a, ha, hma⟩ := i3 Name.n_sources (by decide)
    show c3.load (swapPtrs c2.attr Name.n_sources) = _
    have hsn : swapPtrs c2.attr Name.n_sources = some a := by simpa [swapPtrs] using ha
    rw [hsn]; exact hma
  · obtain ⟨a, ha, hma⟩ := i3 Name.n_radii (by decide)
    show c3.load (swapPtrs c2.attr Name.n_radii) = _
    have hsn : swapPtrs c2.attr Name.n_radii = some a := by simpa [swapPtrs] using ha
    rw [hsn]; exact hma

lemma cpu_subtractLoop (pix : Name → Arr) (rest : List (List S)) : ∀ (prev : List S) (d : Arr)
    (c : Cpu), (∀ b ∈ rest, b ≠ []) → CReady ops pix prev d c →
    ∃ c', Cpu.subtractLoop ops prev rest c = (none, c') ∧
      CReady ops pix ((prev :: rest).getLast (by simp))
        (d - (((prev :: rest).dropLast).map (image ops pix)).sum) c' ∧
      c'.dirty = c.dirty := by
  induction rest with
  | nil =>
    intro prev d c _ h
    refine ⟨c, rfl, ?_, rfl⟩
    simpa using h
  | cons sc rest ih =>
    intro prev d c hb h
    obtain ⟨c1, e1, e2, e3, r, e4, e5⟩ := evaluate_cready ops pix prev d c h
    obtain ⟨c2, c3, f1, f2, f3, f4⟩ := swap_cready ops pix prev sc d _ c1 (hb sc List.mem_cons_self) e2
      r e4 e5
    obtain ⟨c', q1, q2, q3⟩ := ih sc _ c3 (fun b h => hb b (List.mem_cons_of_mem _ h)) f3
    refine ⟨c', ?_, ?_, by rw [q3, f4, e3]⟩
    · unfold Cpu.subtractLoop
      rw [e1]; simp only
      rw [f1]; simp only
      rw [f2]; exact q1
    · have hl : (prev :: sc :: rest).getLast (by simp) = (sc :: rest).getLast (by simp) :=
        List.getLast_cons (by simp)
      rw [hl]
      have hd : (prev :: sc :: rest).dropLast = prev :: (sc :: rest).dropLast := rfl
      rw [hd, List.map_cons, List.sum_cons, ← sub_sub]
      exact q2

/-- The host side is packed: distinct pixel arrays holding `pix`, data currently `d`. -/
structure CPacked (pix : Name → Arr) (d : Arr) (c : Cpu) : Prop where
  dist : c.Distinct
  data : ∃ a, c.attr Name.data = some a ∧ c.mem a = d
  other : ∀ n, n ∉ metaNames → n ≠ Name.data → n ≠ Name.residual →
    ∃ a, c.attr n = some a ∧ c.mem a = pix n
  clean : c.dirty = false

lemma send_cready (pix : Name → Arr) (d : Arr) (sc : List S) (c : Cpu) (hne : sc ≠ [])
    (h : CPacked pix d c) :
    ∃ c1 c2, c.packMeta ops sc = (none, c1) ∧ c1.send = (none, c2) ∧ CReady ops pix sc d c2 ∧
      c2.dirty = false := by
  obtain ⟨i1, i2, i3, i4, i5, i6, i7, i8⟩ := setAttrs_facts (fun n => ops.packed sc n) metaNames
    metaNames_nodup c h.dist
  set c1 := metaNames.foldl (fun c n => c.setAttr n (ops.packed sc n)) c with hc1
  have hpk : c.packMeta ops sc = (none, c1) := by unfold Cpu.packMeta; rw [if_neg hne]
  obtain ⟨ad, had, hmd⟩ := h.data
  have hd1 : c1.attr Name.data = some ad := by rw [i2 _ (by decide)]; exact had
  set c2 := c1.setAttr Name.residual fun _ => 0 with hc2
  have dist2 : c2.Distinct := setAttr_distinct c1 i1 _ _
  have hattr2 : ∀ n, n ≠ Name.residual → c2.attr n = c1.attr n := fun n hn => Function.update_of_ne hn _ _
  have hmem2 : ∀ a < c1.next, c2.mem a = c1.mem a := fun a ha => Function.update_of_ne (by omega) _ _
  have hres2 : c2.attr Name.residual = some c1.next := by simp [hc2, Cpu.setAttr]
  have hoth2 : ∀ n, n ≠ Name.data → n ≠ Name.residual →
      ∃ a, c2.attr n = some a ∧ c2.mem a = wanted ops pix sc n := by
    intro n h1 h2
    by_cases hm : n ∈ metaNames
    · obtain ⟨a, ha, hma⟩ := i3 n hm
      refine ⟨a, (hattr2 n h2).trans ha, ?_⟩
      rw [hmem2 a (i1.lt _ _ ha), hma]; unfold wanted; rw [if_pos hm]
    · obtain ⟨a, ha, hma⟩ := h.other n hm h1 h2
      refine ⟨a, (hattr2 n h2).trans ((i2 n hm).trans ha), ?_⟩
      have hlt := h.dist.lt _ _ ha
      rw [hmem2 a (by omega), i4 a hlt, hma]
      unfold wanted; rw [if_neg hm]
  have hd2 : c2.attr Name.data = some ad := (hattr2 _ (by decide)).trans hd1
  have hmd2 : c2.mem ad = d := by
    have hlt := h.dist.lt _ _ had
    rw [hmem2 ad (by omega), i4 ad hlt]; exact hmd
  have hsome : ∀ n, c2.attr n ≠ none := by
    intro n
    by_cases h1 : n = Name.data
    · rw [h1, hd2]; simp
    · by_cases h2 : n = Name.residual
      · rw [h2, hres2]; simp
      · obtain ⟨a, ha, _⟩ := hoth2 n h1 h2; rw [ha]; simp
  set p : Name → Option Nat := fun n => if isPtr n = true then c2.attr n else none with hp
  have hss := cpu_sendStruct { c2 with ptrs := some p } p rfl
    (fun n hn => by show (if isPtr n = true then c2.attr n else none) ≠ none; rw [if_pos hn]; exact hsome n)
    (hsome Name.n_sources) (hsome Name.n_radii)
  have hsend : c1.send = Cpu.sendStruct { c2 with ptrs := some p } := by
    unfold Cpu.send
    rw [if_neg (by simp [hd1])]
    simp only
    rw [if_neg ?_]
    simp only [List.any_eq_true, not_exists, not_and]
    intro n _
    simpa using hsome n
  refine ⟨c1, _, hpk, hsend.trans hss, ⟨⟨dist2.inj, dist2.lt⟩, ⟨ad, hd2, hmd2⟩, ⟨c1.next, hres2⟩, hoth2,
    ⟨p, rfl, rfl, ?_⟩, ?_, ?_⟩, i7.trans h.clean⟩
  · intro n hn
    show (if isPtr n = true then c2.attr n else none) = _
    rw [if_pos hn]
  · obtain ⟨a, ha, hma⟩ := hoth2 Name.n_sources (by decide) (by decide)
    show c2.load (c2.attr Name.n_sources) = _
    rw [ha]; exact hma
  · obtain ⟨a, ha, hma⟩ := hoth2 Name.n_radii (by decide) (by decide)
    show c2.load (c2.attr Name.n_radii) = _
    rw [ha]; exact hma

lemma cready_packed (pix : Name → Arr) (sc : List S) (d : Arr) (c : Cpu) (h : CReady ops pix sc d c)
    (hd : c.dirty = false) : CPacked pix d c := by
  refine ⟨h.dist, h.data, ?_, hd⟩
  intro n hm h1 h2
  obtain ⟨a, ha, hma⟩ := h.other n h1 h2
  exact ⟨a, ha, by rw [hma]; unfold wanted; rw [if_neg hm]⟩

lemma cpu_subtract (pix : Name → Arr) (m : Nat) (hm : 0 < m) (swapLocal : Bool)
    (fixed big : Option (List S)) (active : List S) (hf : fixed ≠ some []) (hb : big ≠ some [])
    (ha : active ≠ []) :
    ∃ bs : List (List S), bs.flatten = big.getD [] ++ fixed.getD [] ∧
      (∀ b ∈ bs, b ≠ [] ∧ b.length ≤ m) ∧
      ∀ (d : Arr) (c : Cpu), CPacked pix d c →
        ∃ c', c.subtractFixed ops m swapLocal fixed (some active) big = (.ok active, c') ∧
          CReady ops pix active (d - (bs.map (image ops pix)).sum) c' ∧ c'.dirty = false := by
  obtain ⟨bb, b1, b2, b3⟩ := optBlocks_ok m hm big hb
  obtain ⟨fb, f1, f2, f3⟩ := optBlocks_ok m hm fixed hf
  have hsc : scenes m swapLocal fixed (some active) big = .ok (bb ++ fb ++ [active]) := by
    unfold scenes; rw [b1, f1]
  have hall : ∀ b ∈ bb ++ fb, b ≠ [] ∧ b.length ≤ m := by
    intro b hb
    rcases List.mem_append.mp hb with hb | hb
    · exact b3 b hb
    · exact f3 b hb
  refine ⟨bb ++ fb, by rw [List.flatten_append, b2, f2], hall, ?_⟩
  intro d c h
  obtain ⟨first, rest, hfr⟩ : ∃ first rest, bb ++ fb ++ [active] = first :: rest := by
    cases hh : bb ++ fb ++ [active] with
    | nil => simp at hh
    | cons x xs => exact ⟨x, xs, rfl⟩
  have hne : ∀ b ∈ first :: rest, b ≠ [] := by
    intro b hb
    rw [← hfr] at hb
    rcases List.mem_append.mp hb with hb | hb
    · exact (hall b hb).1
    · rw [List.mem_singleton.mp hb]; exact ha
  obtain ⟨c1, c2, s1, s2, s3, s4⟩ := send_cready ops pix d first c (hne first List.mem_cons_self) h
  obtain ⟨c3, l1, l2, l3⟩ := cpu_subtractLoop ops pix rest first d c2
    (fun b hb => hne b (List.mem_cons_of_mem _ hb)) s3
  have hlast : (first :: rest).getLast (by simp) = active := by
    have : ∀ (l : List (List S)) (hl : l ≠ []), l = bb ++ fb ++ [active] → l.getLast hl = active := by
      rintro l hl rfl
      simp
    exact this _ _ hfr.symm
  have hdrop : (first :: rest).dropLast = bb ++ fb := by
    rw [← hfr]; simp
  rw [hlast, hdrop] at l2
  refine ⟨c3, ?_, l2, l3.trans s4⟩
  unfold Cpu.subtractFixed
  rw [hsc]
  simp only [hfr]
  rw [if_neg (by simp [h.clean]), s1]
  simp only
  rw [s2]; simp only
  rw [l1]; simp only
  rw [hlast]

lemma cready_retrieve (pix : Name → Arr) (sc : List S) (d : Arr) (c : Cpu)
    (h : CReady ops pix sc d c) : c.retrieve Name.data = .ok d := by
  obtain ⟨a, ha, hma⟩ := h.data
  unfold Cpu.retrieve
  rw [ha]
  exact congrArg _ hma

/-- C47 on a CPU: as on the GPU. -/
theorem C47_cpu (pix : Name → Arr) (d : Arr) (m : Nat) (hm : 0 < m) (swapLocal : Bool)
    (fixed big : Option (List S)) (active : List S) (hf : fixed ≠ some []) (hb : big ≠ some [])
    (ha : active ≠ []) (c : Cpu) (h : CPacked pix d c) :
    ∃ (c' : Cpu) (bs : List (List S)),
      c.subtractFixed ops m swapLocal fixed (some active) big = (.ok active, c') ∧
      bs.flatten = big.getD [] ++ fixed.getD [] ∧ (∀ b ∈ bs, b ≠ [] ∧ b.length ≤ m) ∧
      c'.retrieve Name.data = .ok (d - (bs.map (image ops pix)).sum) ∧
      ∃ c'', c'.evaluate ops (ops.proposal active) = (none, c'') ∧
        c''.retrieve Name.residual =
          .ok (d - (bs.map (image ops pix)).sum - image ops pix active) := by
  obtain ⟨bs, h1, h2, h3⟩ := cpu_subtract ops pix m hm swapLocal fixed big active hf hb ha
  obtain ⟨c', q1, q2, q3⟩ := h3 d c h
  obtain ⟨c'', e1, e2, e3, r, e4, e5⟩ := evaluate_cready ops pix active _ c' q2
  refine ⟨c', bs, q1, h1, h2, cready_retrieve ops pix active _ c' q2, c'', e1, ?_⟩
  unfold Cpu.retrieve
  rw [e4]
  exact congrArg _ e5

/-- Where images add up over sources, the images of consecutive blocks add up to the images of the
single sources. -/
theorem C47_blocks_add (pix : Name → Arr) (hnil : image ops pix ([] : List S) = 0)
    (hadd : ∀ a b : List S, image ops pix (a ++ b) = image ops pix a + image ops pix b)
    (bs : List (List S)) :
    (bs.map (image ops pix)).sum = (bs.flatten.map fun s => image ops pix [s]).sum := by
  have hone : ∀ l : List S, image ops pix l = (l.map fun s => image ops pix [s]).sum := by
    intro l
    induction l with
    | nil => simp [hnil]
    | cons s rest ih =>
      have : s :: rest = [s] ++ rest := rfl
      rw [this, hadd, ih]
      simp
  induction bs with
  | nil => simp
  | cons b rest ih =>
    rw [List.map_cons, List.sum_cons, List.flatten_cons, List.map_append, List.sum_append, ih, hone b]

/-- C47 refuted for repeated preparation on a CPU: preparing the same patch twice with the same
catalogs subtracts every fixed source twice. -/
theorem C47_cpu_twice (pix : Name → Arr) (d : Arr) (m : Nat) (hm : 0 < m) (swapLocal : Bool)
    (fixed big : Option (List S)) (active : List S) (hf : fixed ≠ some []) (hb : big ≠ some [])
    (ha : active ≠ []) (c : Cpu) (h : CPacked pix d c) :
    ∃ (c1 c2 : Cpu) (bs : List (List S)),
      c.subtractFixed ops m swapLocal fixed (some active) big = (.ok active, c1) ∧
      c1.subtractFixed ops m swapLocal fixed (some active) big = (.ok active, c2) ∧
      bs.flatten = big.getD [] ++ fixed.getD [] ∧
      c2.retrieve Name.data =
        .ok (d - (bs.map (image ops pix)).sum - (bs.map (image ops pix)).sum) := by
  obtain ⟨bs, h1, h2, h3⟩ := cpu_subtract ops pix m hm swapLocal fixed big active hf hb ha
  obtain ⟨c1, q1, q2, q3⟩ := h3 d c h
  obtain ⟨c2, r1, r2, r3⟩ := h3 _ c1 (cready_packed ops pix active _ c1 q2 q3)
  exact ⟨c1, c2, bs, q1, r1, h1, cready_retrieve ops pix active _ c2 r2⟩

/-- On a GPU the second preparation is refused, and the data on the device are untouched. -/
theorem C47_gpu_twice (junk : Arr) (m : Nat) (swapLocal : Bool)
    (fixed active big : Option (List S)) (g : Gpu) (hd : g.dirty = true)
    (sc : List (List S)) (hs : scenes m swapLocal fixed active big = .ok sc) :
    (g.subtractFixed ops junk m swapLocal fixed active big).1 = .error .assertionError ∧
    (g.subtractFixed ops junk m swapLocal fixed active big).2.ptrs = g.ptrs ∧
    (g.subtractFixed ops junk m swapLocal fixed active big).2.cell = g.cell := by
  unfold Gpu.subtractFixed
  rw [hs]
  cases sc with
  | nil => exact ⟨rfl, rfl, rfl⟩
  | cons first rest =>
    simp only
    rw [if_pos hd]
    exact ⟨rfl, rfl, rfl⟩

/-- After a first preparation with at least one fixed or big source the device data are dirty, so
`C47_gpu_twice` applies. -/
theorem C47_gpu_dirty (pix : Name → Arr) (junk : Arr) (m : Nat) (hm : 0 < m) (swapLocal : Bool)
    (fixed big : Option (List S)) (active : List S) (hf : fixed ≠ some []) (hb : big ≠ some [])
    (hsome : fixed ≠ none ∨ big ≠ none)
    (ha : active ≠ []) (g : Gpu) (h : Packed pix g) :
    (g.subtractFixed ops junk m swapLocal fixed (some active) big).2.dirty = true := by
  obtain ⟨bb, b1, b2, b3⟩ := optBlocks_ok m hm big hb
  obtain ⟨fb, f1, f2, f3⟩ := optBlocks_ok m hm fixed hf
  have hsc : scenes m swapLocal fixed (some active) big = .ok (bb ++ fb ++ [active]) := by
    unfold scenes; rw [b1, f1]
  have hnil : bb ++ fb ≠ [] := by
    intro hc
    rw [List.append_eq_nil_iff] at hc
    rw [hc.1] at b2; rw [hc.2] at f2
    rcases hsome with hh | hh
    · cases fixed with
      | none => exact hh rfl
      | some c => exact hf (by rw [show c = [] from f2.symm])
    · cases big with
      | none => exact hh rfl
      | some c => exact hb (by rw [show c = [] from b2.symm])
  obtain ⟨first, rest, hfr⟩ : ∃ first rest, bb ++ fb = first :: rest := by
    cases hh : bb ++ fb with
    | nil => exact absurd hh hnil
    | cons x xs => exact ⟨x, xs, rfl⟩
  have hne : ∀ b ∈ first :: (rest ++ [active]), b ≠ [] := by
    intro b hb
    rcases List.mem_cons.mp hb with rfl | hb
    · have : b ∈ bb ++ fb := by rw [hfr]; exact List.mem_cons_self
      rcases List.mem_append.mp this with hb | hb
      · exact (b3 b hb).1
      · exact (f3 b hb).1
    · rcases List.mem_append.mp hb with hb | hb
      · have : b ∈ bb ++ fb := by rw [hfr]; exact List.mem_cons_of_mem _ hb
        rcases List.mem_append.mp this with hb | hb
        · exact (b3 b hb).1
        · exact (f3 b hb).1
      · rw [List.mem_singleton.mp hb]; exact ha
  obtain ⟨g1, g2, s1, s2, s3, s4⟩ := send_ready ops pix first junk g (hne first List.mem_cons_self) h
  obtain ⟨g3, l1, l2, l3⟩ := subtractLoop_ready ops pix (rest ++ [active]) first (pix Name.data) g2
    (fun b hb => hne b (List.mem_cons_of_mem _ hb)) s3
  unfold Gpu.subtractFixed
  rw [hsc]
  simp only [hfr, List.cons_append]
  rw [if_neg (by simp [h.clean]), s1]
  simp only
  rw [s2]; simp only
  rw [l1]; simp only
  rw [l3]
  simp

/-- C47 degenerate inputs: an empty fixed catalog (as opposed to none) makes the preparation fail
with an `IndexError`, whatever the other catalogs, on both devices; a block size of zero fails; and
without active sources the call fails unless `swap_local` is set. -/
theorem C47_degenerate (junk : Arr) (m : Nat) (hm : 0 < m) (active : List S)
    (g : Gpu) (c : Cpu) (hg : g.dirty = false) (hc : c.dirty = false) :
    (g.subtractFixed ops junk m false (some []) (some active) none).1 = .error .indexError ∧
    (c.subtractFixed ops m false (some []) (some active) none).1 = .error .indexError ∧
    (∀ f : List S, (g.subtractFixed ops junk 0 false (some f) (some active) none).1 =
      .error .zeroDivision) ∧
    (∀ f : List S, (g.subtractFixed ops junk m false (some f) none none).1 =
      .error .assertionError) := by
  have hbl : blocks m ([] : List S) = .ok [[]] := by
    unfold blocks
    rw [if_neg (by omega)]
    simp [arange, arraySplitFrom]
  have hsc : scenes m false (some []) (some active) none = .ok [[], active] := by
    have h1 : optBlocks m (some ([] : List S)) = .ok [[]] := hbl
    unfold scenes
    rw [h1]; rfl
  refine ⟨?_, ?_, ?_, ?_⟩
  · unfold Gpu.subtractFixed
    rw [hsc]
    simp only
    rw [if_neg (by simp [hg])]
    rfl
  · unfold Cpu.subtractFixed
    rw [hsc]
    simp only
    rw [if_neg (by simp [hc])]
    rfl
  · intro f
    unfold Gpu.subtractFixed scenes optBlocks blocks
    rfl
  · intro f
    obtain ⟨bs, hb, _⟩ := blocks_ok m hm f
    have h1 : optBlocks m (some f) = .ok bs := hb
    unfold Gpu.subtractFixed scenes
    rw [h1]
    rfl

/-- C47 without active sources (and `swap_local`): every block, the last one included, is
subtracted exactly once, and the metadata left on the device are those of the last block. -/
theorem C47_no_active (pix : Name → Arr) (junk : Arr) (m : Nat) (hm : 0 < m) (fixed : List S)
    (hf : fixed ≠ []) (g : Gpu) (h : Packed pix g) :
    ∃ (g' : Gpu) (bs : List (List S)) (hbs : bs ≠ []),
      g.subtractFixed ops junk m true (some fixed) none none = (.ok (bs.getLast hbs), g') ∧
      bs.flatten = fixed ∧
      g'.retrieve Name.data = .ok (pix Name.data - (bs.map (image ops pix)).sum) := by
  obtain ⟨bs, b1, b2, b3⟩ := blocks_ok m hm fixed
  have hbs : bs ≠ [] := by rintro rfl; exact hf b2.symm
  have hsc : scenes m true (some fixed) none none = .ok (bs ++ [bs.getLast hbs]) := by
    have h1 : optBlocks m (some fixed) = .ok bs := b1
    have h2 : optBlocks m (none : Option (List S)) = .ok [] := rfl
    unfold scenes
    rw [h1, h2]
    simp [List.getLast?_eq_some_getLast hbs]
  have hne : ∀ b ∈ bs, b ≠ [] := fun b hb => (b3 hf b hb).1
  obtain ⟨first, rest, hfr⟩ : ∃ first rest, bs = first :: rest := by
    cases hh : bs with
    | nil => exact absurd hh hbs
    | cons x xs => exact ⟨x, xs, rfl⟩
  have hall : ∀ b ∈ rest ++ [bs.getLast hbs], b ≠ [] := by
    intro b hb
    rcases List.mem_append.mp hb with hb | hb
    · exact hne b (hfr ▸ List.mem_cons_of_mem _ hb)
    · rw [List.mem_singleton.mp hb]; exact hne _ (List.getLast_mem hbs)
  obtain ⟨g1, g2, s1, s2, s3, s4⟩ := send_ready ops pix first junk g
    (hne first (hfr ▸ List.mem_cons_self)) h
  obtain ⟨g3, l1, l2, l3⟩ := subtractLoop_ready ops pix (rest ++ [bs.getLast hbs]) first (pix Name.data)
    g2 hall s3
  have hlist : first :: (rest ++ [bs.getLast hbs]) = bs ++ [bs.getLast hbs] := by
    have : ∀ x : List S, first :: (rest ++ [x]) = bs ++ [x] := by
      intro x; rw [hfr]; rfl
    exact this _
  have hlast : (first :: (rest ++ [bs.getLast hbs])).getLast (by simp) = bs.getLast hbs := by
    have : ∀ (l : List (List S)) (hl : l ≠ []) (x : List S), l = bs ++ [x] → l.getLast hl = x := by
      rintro l hl x rfl
      simp
    exact this _ _ _ hlist
  have hdrop : (first :: (rest ++ [bs.getLast hbs])).dropLast = bs := by
    rw [hlist]; simp
  rw [hlast, hdrop] at l2
  refine ⟨g3, bs, hbs, ?_, b2, ?_⟩
  · unfold Gpu.subtractFixed
    rw [hsc, ← hlist]
    simp only
    rw [if_neg (by simp [h.clean]), s1]
    simp only
    rw [s2]; simp only
    rw [l1]; simp only
    rw [hlast]
  · obtain ⟨p, hp, _, ⟨a, ha1, ha2⟩, _⟩ := l2.hptrs
    unfold Gpu.retrieve
    rw [hp]; simp only
    rw [ha1]; simp only
    rw [ha2]

end

/-! ## A concrete device -/

/-- Sources are numbers; a scene's `n_sources` entry and its proposal hold the sum, the image is the
proposal at every pixel. -/
def exOps : Ops ℝ where
  packed := fun sc n => if n = Name.n_sources then fun _ => sc.length else fun _ => 0
  proposal := fun sc _ => sc.sum
  model := fun _ prop _ => prop 0

/-- Pixel arrays: data 10 everywhere. -/
def exPix : Name → Arr := fun n _ => if n = Name.data then 10 else 1

/-- A GPU patch with packed pixels. -/
def exGpu : Gpu :=
  { fresh with
    attr := fun n => if n ∈ metaNames ∨ n = Name.residual then none else some (exPix n)
    dirty := false }

lemma exGpu_packed : Packed exPix exGpu := by
  refine ⟨wf_flags _ _ _ (wf_attr fresh _ wf_fresh), ?_, ?_, rfl⟩
  · intro n h1 h2
    show (if n ∈ metaNames ∨ n = Name.residual then none else some (exPix n)) = _
    rw [if_neg (by tauto)]
  · rfl

lemma ex_image (sc : List ℝ) : image exOps exPix sc = fun _ => sc.sum := rfl

/-- The hypotheses of `C47_gpu` and `C47_blocks_add` hold: with fixed sources 1, 2, 3 in blocks of
two, the data 10 become 10 − 6 = 4. -/
example : ∃ g', exGpu.subtractFixed exOps (fun _ => 0) 2 false (some [1, 2, 3]) (some [5]) none =
      (.ok [5], g') ∧ g'.retrieve Name.data = .ok (fun _ => 4) := by
  obtain ⟨g', bs, h1, h2, h3, h4, _⟩ := C47_gpu exOps exPix (fun _ => 0) 2 (by norm_num) false
    (some [1, 2, 3]) none [5] (by simp) (by simp) (by simp) exGpu exGpu_packed
  refine ⟨g', h1, ?_⟩
  rw [h4, C47_blocks_add exOps exPix (by funext i; simp [ex_image]) (by
    intro a b
    funext i
    simp [ex_image]) bs, h2]
  congr 1
  funext i
  simp [ex_image, exPix]
  norm_num

end Forcepho.Device
