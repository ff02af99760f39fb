import Verif.Patch.Lists
import Mathlib.Data.List.Nodup
import Mathlib.Algebra.Order.Field.Rat

/-! # Properties C41 and C42 of pixel packing -/

set_option autoImplicit false
set_option linter.unusedSectionVars false

namespace Forcepho.Patch

section
variable {K : Type} [Field K] {β : Type} [DecidableEq β]

/-- An exposure: band, background offset and pixels. -/
abbrev Exp (β K : Type) := β × Option K × PixDat K

/-- Specification: the number of pixels of an exposure. -/
def size (x : Exp β K) : Nat := x.2.2.flux.flatten.length

/-- Specification: the flux values of an exposure, less its background offset. -/
def values (x : Exp β K) : List K :=
  x.2.2.flux.flatten.map fun v => match x.2.1 with
    | some o => v - o
    | none => v

lemma tweak_flatten (x : Exp β K) : (tweak x.2.1 x.2.2.flux).flatten = values x := by
  obtain ⟨b, o, p⟩ := x
  cases o with
  | none => simp [tweak, values]
  | some o => simp [tweak, values, List.map_flatten]

lemma values_length (x : Exp β K) : (values x).length = size x := by
  simp only [values, size, List.length_map]

/-! ## The loop -/

/-- The band counter of each exposure in the loop. -/
def bandIdxs (b : Nat) (prev : Option β) : List β → List Nat
  | [] => []
  | x :: l =>
    let b' := if prev.isSome && decide (prev ≠ some x) then b + 1 else b
    b' :: bandIdxs b' (some x) l

lemma packLoop_ok {st st' : Loop K} {prev : Option β} {l : List (Exp β K)}
    (h : packLoop st prev l = .ok st') :
    st'.i = st.i + (l.map size).sum ∧
    st'.exposureStart = st.exposureStart ++ (starts st.i (l.map size)).take l.length ∧
    st'.exposureN = st.exposureN ++ l.map size ∧
    st'.data = st.data ++ (l.map fun x => tweak x.2.1 x.2.2.flux).flatten ∧
    st'.ierr = st.ierr ++ (l.map fun x => x.2.2.ierr).flatten ∧
    st'.xpix = st.xpix ++ (l.map fun x => x.2.2.xpix).flatten ∧
    st'.ypix = st.ypix ++ (l.map fun x => x.2.2.ypix).flatten ∧
    st'.bandN.length = st.bandN.length ∧
    (∀ (k n : Nat), st.bandN[k]? = some n →
      st'.bandN[k]? = some (n + (bandIdxs st.b prev (l.map (·.1))).count k)) ∧
    (∀ x ∈ l, 0 < size x) := by
  induction l generalizing st prev with
  | nil =>
    simp only [packLoop, Except.ok.injEq] at h
    subst h
    simp [bandIdxs]
  | cons x l ih =>
    obtain ⟨band, offset, p⟩ := x
    simp only [packLoop] at h
    split at h
    · cases h
    rename_i st1 hst
    simp only [packStep] at hst
    split at hst
    · cases hst
    rename_i hn
    by_cases hle : st.bandN.length ≤
        (if prev.isSome && decide (prev ≠ some band) then st.b + 1 else st.b)
    · rw [if_pos hle] at hst
      cases hst
    rw [if_neg hle] at hst
    simp only [Except.ok.injEq] at hst
    obtain ⟨h1, h2, h3, h4, h5, h6, h7, h8, h9, h10⟩ := ih h
    subst hst
    simp only at h1 h2 h3 h4 h5 h6 h7 h8 h9
    refine ⟨?_, ?_, ?_, ?_, ?_, ?_, ?_, ?_, ?_, ?_⟩
    · rw [h1, List.map_cons, List.sum_cons]
      simp only [size]
      omega
    · rw [h2]
      rw [List.append_assoc]
      congr 1
      cases l with
      | nil => simp [starts]
      | cons y l => simp [starts, cumsumFrom, size]
    · rw [h3]; simp [size]
    · rw [h4]; simp
    · rw [h5]; simp
    · rw [h6]; simp
    · rw [h7]; simp
    · rw [h8]; simp
    · intro k n hk
      simp only [List.map_cons, bandIdxs]
      generalize (if prev.isSome && decide (prev ≠ some band) then st.b + 1 else st.b) = b'
        at h9 ⊢
      by_cases hkb : k = b'
      · rw [h9 k (n + 1)]
        · rw [← hkb]
          simp only [List.count_cons_self]
          congr 1
          omega
        · rw [← hkb, List.getElem?_modify_eq, hk]
          rfl
      · rw [h9 k n]
        · rw [List.count_cons_of_ne (fun h => hkb h.symm)]
        · rw [List.getElem?_modify, hk]
          have hbk : ¬ b' = k := fun h => hkb h.symm
          simp [hbk]
    · intro y hy
      rcases List.mem_cons.1 hy with rfl | hy
      · simp only [size]; omega
      · exact h10 y hy

/-! ## Band counters -/

lemma bandIdxs_spec (key : β → Nat) (A : List β)
    (hinj : ∀ (a b : β), a ∈ A → b ∈ A → key a = key b → a = b)
    (u : List Nat) (hu : u.Pairwise (· < ·))
    (l : List β) (hl : l.Pairwise fun a b => key a ≤ key b) (hmem : ∀ x ∈ l, key x ∈ u)
    (hA : ∀ x ∈ l, x ∈ A)
    (p : β) (hpA : p ∈ A) (b : Nat) (hpb : u[b]? = some (key p)) (hp : ∀ x ∈ l, key p ≤ key x)
    (hge : ∀ (v : Nat), v ∈ u → key p < v → ∃ x ∈ l, key x = v) :
    (bandIdxs b (some p) l).map (fun k => u[k]?) = l.map fun x => some (key x) := by
  induction l generalizing p b with
  | nil => rfl
  | cons x l ih =>
    rw [List.pairwise_cons] at hl
    simp only [bandIdxs, Option.isSome_some, Bool.true_and, List.map_cons]
    by_cases hx : p = x
    · subst hx
      simp only [ne_eq, not_true_eq_false, decide_false, Bool.false_eq_true, if_false]
      rw [hpb, ih hl.2 (fun y hy => hmem y (by simp [hy]))
        (fun y hy => hA y (by simp [hy])) p hpA b hpb hl.1]
      intro v hv hlt
      obtain ⟨y, hy, hyv⟩ := hge v hv hlt
      rcases List.mem_cons.1 hy with rfl | hy
      · omega
      · exact ⟨y, hy, hyv⟩
    · have hne : (some p : Option β) ≠ some x := fun h => hx (by simpa using h)
      simp only [ne_eq, hne, not_false_eq_true, decide_true, if_true]
      have hlt : key p < key x := lt_of_le_of_ne (hp x (by simp)) fun h =>
        hx (hinj _ _ hpA (hA x (by simp)) h)
      have hnext : u[b + 1]? = some (key x) := by
        obtain ⟨j, hj⟩ := List.mem_iff_getElem?.1 (hmem x (by simp))
        obtain ⟨hjl, hj'⟩ := List.getElem?_eq_some_iff.1 hj
        obtain ⟨hbl, hb'⟩ := List.getElem?_eq_some_iff.1 hpb
        have hmono := List.pairwise_iff_getElem.1 hu
        have hbj : b < j := by
          by_contra hcon
          rcases Nat.lt_or_eq_of_le (Nat.le_of_not_lt hcon) with h | h
          · have := hmono j b hjl hbl h
            omega
          · subst h
            omega
        rcases Nat.lt_or_eq_of_le hbj with h | h
        · exfalso
          have h1 := hmono b (b + 1) hbl (by omega) (by omega)
          have h2 := hmono (b + 1) j (by omega) hjl h
          obtain ⟨y, hy, hyv⟩ := hge u[b + 1] (List.getElem_mem _) (by omega)
          rcases List.mem_cons.1 hy with rfl | hy
          · omega
          · have := hl.1 y hy
            omega
        · have : j = b + 1 := by omega
          rw [← this]
          exact hj
      rw [hnext, ih hl.2 (fun y hy => hmem y (by simp [hy]))
        (fun y hy => hA y (by simp [hy])) x (hA x (by simp)) (b + 1) hnext hl.1]
      intro v hv hlt'
      obtain ⟨y, hy, hyv⟩ := hge v hv (by omega)
      rcases List.mem_cons.1 hy with rfl | hy
      · omega
      · exact ⟨y, hy, hyv⟩

lemma bandIdxs_none (key : β → Nat) (A : List β)
    (hinj : ∀ (a b : β), a ∈ A → b ∈ A → key a = key b → a = b)
    (u : List Nat) (hu : u.Pairwise (· < ·))
    (l : List β) (hl : l.Pairwise fun a b => key a ≤ key b)
    (hA : ∀ x ∈ l, x ∈ A) (hmem : ∀ (v : Nat), v ∈ u ↔ ∃ x ∈ l, key x = v) :
    (bandIdxs 0 none l).map (fun k => u[k]?) = l.map fun x => some (key x) := by
  cases l with
  | nil => rfl
  | cons x l =>
    have hl' := hl
    rw [List.pairwise_cons] at hl
    simp only [bandIdxs, Option.isSome_none, Bool.false_and, Bool.false_eq_true, if_false,
      List.map_cons]
    have hx : u[0]? = some (key x) := by
      obtain ⟨j, hj⟩ := List.mem_iff_getElem?.1 ((hmem (key x)).2 ⟨x, by simp, rfl⟩)
      rcases Nat.eq_zero_or_pos j with h | h
      · subst h; exact hj
      · exfalso
        obtain ⟨hjl, hj'⟩ := List.getElem?_eq_some_iff.1 hj
        have h1 := List.pairwise_iff_getElem.1 hu 0 j (by omega) hjl h
        obtain ⟨y, hy, hyv⟩ := (hmem u[0]).1 (List.getElem_mem _)
        rcases List.mem_cons.1 hy with rfl | hy
        · omega
        · have := hl.1 y hy
          omega
    rw [hx, bandIdxs_spec key A hinj u hu l hl.2
      (fun y hy => (hmem _).2 ⟨y, by simp [hy], rfl⟩) (fun y hy => hA y (by simp [hy]))
      x (hA x (by simp)) 0 hx hl.1]
    intro v hv hlt
    obtain ⟨y, hy, hyv⟩ := (hmem v).1 hv
    rcases List.mem_cons.1 hy with rfl | hy
    · omega
    · exact ⟨y, hy, hyv⟩

/-! ## Grouping -/

lemma bandIds_ok {allbands bands : List β} {ids : List Nat} (h : bandIds allbands bands = .ok ids) :
    ids = bands.map (fun b => allbands.idxOf b) ∧ ∀ b ∈ bands, b ∈ allbands := by
  induction bands generalizing ids with
  | nil =>
    simp only [bandIds, List.mapM_nil] at h
    cases h
    simp
  | cons b l ih =>
    simp only [bandIds, List.mapM_cons] at h
    by_cases hb : b ∈ allbands
    · rw [if_pos hb] at h
      cases hl : bandIds allbands l with
      | error e =>
        simp only [bandIds] at hl
        rw [hl] at h
        cases h
      | ok ids' =>
        obtain ⟨h1, h2⟩ := ih hl
        simp only [bandIds] at hl
        rw [hl] at h
        cases h
        refine ⟨by simp [h1], ?_⟩
        intro c hc
        rcases List.mem_cons.1 hc with rfl | hc
        · exact hb
        · exact h2 c hc
    · rw [if_neg hb] at h
      cases h

lemma bandIds_eq {allbands bands : List β} (h : ∀ b ∈ bands, b ∈ allbands) :
    bandIds allbands bands = .ok (bands.map fun b => allbands.idxOf b) := by
  induction bands with
  | nil => rfl
  | cons b l ih =>
    have := ih fun c hc => h c (by simp [hc])
    simp only [bandIds] at this
    simp only [bandIds, List.mapM_cons, if_pos (h b (by simp)), this]
    rfl

lemma idxOf_inj (allbands : List β) (a b : β) (ha : a ∈ allbands) (_hb : b ∈ allbands)
    (h : allbands.idxOf a = allbands.idxOf b) : a = b := (List.idxOf_inj ha).1 h

lemma bandlist_spec (allbands : List β) (u : List Nat)
    (hu : ∀ i ∈ u, ∃ x ∈ allbands, allbands.idxOf x = i) :
    (u.filterMap fun i => allbands[i]?).map (fun b => allbands.idxOf b) = u ∧
    ∀ b ∈ u.filterMap (fun i => allbands[i]?), b ∈ allbands := by
  induction u with
  | nil => simp
  | cons i u ih =>
    obtain ⟨x, hx, rfl⟩ := hu i (by simp)
    obtain ⟨h1, h2⟩ := ih fun j hj => hu j (by simp [hj])
    have hget : allbands[allbands.idxOf x]? = some x := List.getElem?_idxOf hx
    rw [List.filterMap_cons_some hget]
    refine ⟨by simp only [List.map_cons, h1], ?_⟩
    intro b hb
    rcases List.mem_cons.1 hb with rfl | hb
    · exact hx
    · exact h2 b hb

/-- Specification: the exposures of a band, in order. -/
def ofBand (exps : List (Exp β K)) (v : β) : List (Exp β K) :=
  exps.filter fun x => decide (x.1 = v)

/-- Everything about a successfully built patch. -/
structure Built (exps : List (Exp β K)) (g : Bands β) (p : Packed K) : Prop where
  ne : exps ≠ []
  pos : ∀ x ∈ exps, 0 < size x
  nodup : g.bandlist.Nodup
  groups : (g.bandlist.map (ofBand exps)).flatten = exps
  nonempty : ∀ v ∈ g.bandlist, ofBand exps v ≠ []
  nExp : g.nExpPerBand = g.bandlist.map fun v => (ofBand exps v).length
  bandN : p.bandN = g.bandlist.map fun v => (ofBand exps v).length
  bandStart : p.bandStart = starts 0 p.bandN
  exposureN : p.exposureN = exps.map size
  exposureStart : p.exposureStart = starts 0 (exps.map size)
  data : p.data = (exps.map values).flatten
  ierr : p.ierr = (exps.map fun x => x.2.2.ierr.flatten).flatten
  xpix : p.xpix = (exps.map fun x => x.2.2.xpix.flatten).flatten
  ypix : p.ypix = (exps.map fun x => x.2.2.ypix.flatten).flatten
  bandNPix : p.bandNPix =
    (let first := diff (p.bandStart.map fun b => p.exposureStart.getD b 0)
     first ++ [p.xpix.length - first.sum])

lemma map_flatten_flatten {α γ : Type} (f : α → List (List γ)) (l : List α) :
    ((l.map f).flatten).flatten = (l.map fun x => (f x).flatten).flatten := by
  induction l with
  | nil => rfl
  | cons x l ih => simp [ih]

lemma built {allbands : List β} {exps : List (Exp β K)} {g : Bands β} {p : Packed K}
    (h : buildPatch allbands exps = .ok (g, p)) : Built exps g p := by
  simp only [buildPatch] at h
  split at h
  · cases h
  rename_i hne
  split at h
  · cases h
  rename_i g' hg
  split at h
  · cases h
  rename_i p' hp
  simp only [Except.ok.injEq, Prod.mk.injEq] at h
  obtain ⟨rfl, rfl⟩ := h
  have hne' : exps ≠ [] := by
    rintro rfl
    exact hne rfl
  -- grouping
  simp only [groupBands] at hg
  split at hg
  · cases hg
  rename_i ids hids
  obtain ⟨hids', hall⟩ := bandIds_ok hids
  split at hg
  case isFalse => cases hg
  rename_i hsorted
  rw [nonDecreasing_iff] at hsorted
  simp only [Except.ok.injEq] at hg
  subst hg
  have hexall : ∀ x ∈ exps, x.1 ∈ allbands := fun x hx => hall _ (List.mem_map_of_mem hx)
  have hlt : ∀ i ∈ ids, i < allbands.length := by
    intro i hi
    rw [hids'] at hi
    obtain ⟨b, hb, rfl⟩ := List.mem_map.1 hi
    exact List.idxOf_lt_length_iff.2 (hall b hb)
  have hsort' : exps.Pairwise fun a b => allbands.idxOf a.1 ≤ allbands.idxOf b.1 := by
    rw [hids', List.pairwise_map, List.pairwise_map] at hsorted
    exact hsorted
  have humem : ∀ i ∈ uniq allbands.length ids, ∃ x ∈ allbands, allbands.idxOf x = i := by
    intro i hi
    rw [mem_uniq hlt, hids'] at hi
    obtain ⟨b, hb, rfl⟩ := List.mem_map.1 hi
    exact ⟨b, hall b hb, rfl⟩
  obtain ⟨hbl1, hbl2⟩ := bandlist_spec allbands _ humem
  generalize hL : (uniq allbands.length ids).filterMap (fun i => allbands[i]?) = L at hbl1 hbl2 hp ⊢
  have husort := uniq_sorted allbands.length ids
  have hof : ∀ v ∈ L, ofBand exps v =
      exps.filter fun x => decide (allbands.idxOf x.1 = allbands.idxOf v) := by
    intro v hv
    simp only [ofBand]
    apply List.filter_congr
    intro x hx
    have : x.1 = v ↔ allbands.idxOf x.1 = allbands.idxOf v :=
      ⟨fun h => by rw [h], fun h => idxOf_inj _ _ _ (hexall x hx) (hbl2 v hv) h⟩
    simp [this]
  have hgroups : (L.map (ofBand exps)).flatten = exps := by
    have h1 : L.map (ofBand exps) = (uniq allbands.length ids).map fun i =>
        exps.filter fun x => decide (allbands.idxOf x.1 = i) := by
      rw [← hbl1, List.map_map]
      apply List.map_congr_left
      intro v hv
      exact hof v hv
    rw [h1, ← groups_flatten (fun x : Exp β K => allbands.idxOf x.1) _ husort _ hsort']
    rw [List.filter_eq_self]
    intro x hx
    have : allbands.idxOf x.1 ∈ ids := by
      rw [hids']
      exact List.mem_map.2 ⟨x.1, List.mem_map_of_mem hx, rfl⟩
    simpa [mem_uniq hlt] using this
  have hcount : ∀ v ∈ L, ids.count (allbands.idxOf v) = (ofBand exps v).length := by
    intro v hv
    rw [hids', hof v hv, ← List.countP_eq_length_filter, List.map_map, List.count,
      List.countP_map]
    apply List.countP_congr
    intro x _
    simp [Function.comp_def]
  have hnonempty : ∀ v ∈ L, ofBand exps v ≠ [] := by
    intro v hv
    have hm : allbands.idxOf v ∈ uniq allbands.length ids := by
      rw [← hbl1]
      exact List.mem_map_of_mem hv
    rw [mem_uniq hlt] at hm
    have := List.count_pos_iff.2 hm
    rw [hcount v hv] at this
    exact List.length_pos_iff.1 this
  have hnodup : L.Nodup := by
    have : (L.map fun b => allbands.idxOf b).Nodup := by
      rw [hbl1]
      exact husort.imp (fun h => Nat.ne_of_lt h)
    exact List.Nodup.of_map _ this
  -- packing
  simp only [packPix] at hp
  split at hp
  · cases hp
  rename_i st hst
  split at hp
  case isFalse => cases hp
  simp only [Except.ok.injEq] at hp
  obtain ⟨_, h2, h3, h4, h5, h6, h7, h8, h9, h10⟩ := packLoop_ok hst
  simp only [List.nil_append] at h2 h3 h4 h5 h6 h7 h8 h9
  have hstart : st.exposureStart = starts 0 (exps.map size) := by
    rw [h2]
    have := starts_length (exps.map size) (by simpa using hne')
    rw [List.length_map] at this
    rw [← this, List.take_length]
  have hbandN : st.bandN = L.map fun v => (ofBand exps v).length := by
    have hlen : st.bandN.length = L.length := by rw [h8]; simp
    apply List.ext_getElem?
    intro k
    by_cases hk : k < L.length
    · have h0 : (List.replicate L.length 0)[k]? = some 0 := by
        simp [hk]
      rw [h9 k 0 h0, Nat.zero_add]
      have hidx := bandIdxs_none (fun b => allbands.idxOf b) allbands (idxOf_inj allbands)
        (uniq allbands.length ids) husort (exps.map (·.1))
        (by rw [List.pairwise_map]; exact hsort')
        (by intro x hx; exact hall x hx)
        (by
          intro v
          rw [mem_uniq hlt, hids']
          simp)
      have hLk : L[k]? = some L[k] := List.getElem?_eq_getElem hk
      have huk : (uniq allbands.length ids)[k]? = some (allbands.idxOf L[k]) := by
        conv_lhs => rw [← hbl1]
        rw [List.getElem?_map, hLk]
        rfl
      rw [List.getElem?_map, hLk, Option.map_some, ← hcount _ (List.getElem_mem hk), hids']
      congr 1
      have e1 : (List.map (fun b => List.idxOf b allbands) (List.map (fun x => x.1) exps)).count
          (allbands.idxOf L[k]) =
          (List.map (fun x => some (List.idxOf x allbands)) (List.map (fun x => x.1) exps)).count
          (some (allbands.idxOf L[k])) := by
        simp only [List.count, List.countP_map]
        apply List.countP_congr
        intro x _
        simp
      rw [e1, ← hidx]
      simp only [List.count, List.countP_map]
      apply List.countP_congr
      intro j _
      simp only [Function.comp_apply, beq_iff_eq]
      constructor
      · rintro rfl
        exact huk
      · intro hj
        obtain ⟨hjl, hj'⟩ := List.getElem?_eq_some_iff.1 hj
        obtain ⟨hkl, hk'⟩ := List.getElem?_eq_some_iff.1 huk
        have hnd : (uniq allbands.length ids).Nodup := husort.imp (fun h => Nat.ne_of_lt h)
        exact (List.Nodup.getElem_inj_iff hnd).1 (hj'.trans hk'.symm)
    · rw [List.getElem?_eq_none (by omega), List.getElem?_eq_none (by simp; omega)]
  subst hp
  exact
    { ne := hne'
      pos := h10
      nodup := hnodup
      groups := hgroups
      nonempty := hnonempty
      nExp := by
        show (uniq allbands.length ids).map (fun i => ids.count i) = _
        conv_lhs => rw [← hbl1]
        rw [List.map_map]
        apply List.map_congr_left
        intro v hv
        exact hcount v hv
      bandN := hbandN
      bandStart := rfl
      exposureN := h3
      exposureStart := hstart
      data := by
        show st.data.flatten = _
        rw [h4, map_flatten_flatten]
        congr 1
        apply List.map_congr_left
        intro x _
        exact tweak_flatten x
      ierr := by
        show st.ierr.flatten = _
        rw [h5, map_flatten_flatten]
      xpix := by
        show st.xpix.flatten = _
        rw [h6, map_flatten_flatten]
      ypix := by
        show st.ypix.flatten = _
        rw [h7, map_flatten_flatten]
      bandNPix := rfl }

/-! ## C41: ranges -/

/-- Specification: entry `b` of a table of starts and lengths covers position `e`. -/
def Covers (start len : List Nat) (b e : Nat) : Prop :=
  ∃ s n : Nat, start[b]? = some s ∧ len[b]? = some n ∧ s ≤ e ∧ e < s + n

lemma sum_take_mono (l : List Nat) {a b : Nat} (h : a ≤ b) : (l.take a).sum ≤ (l.take b).sum := by
  have : l.take a = (l.take b).take a := by rw [List.take_take]; congr 1; omega
  rw [this]
  conv_rhs => rw [← List.take_append_drop a (l.take b), List.sum_append]
  omega

lemma sum_take_succ (l : List Nat) {b n : Nat} (h : l[b]? = some n) :
    (l.take (b + 1)).sum = (l.take b).sum + n := by
  rw [List.take_add_one, h]
  simp

/-- Ranges given by prefix sums do not overlap. -/
lemma covers_unique (len : List Nat) {a b e : Nat} (ha : Covers (starts 0 len) len a e)
    (hb : Covers (starts 0 len) len b e) : a = b := by
  obtain ⟨s, n, h1, h2, h3, h4⟩ := ha
  obtain ⟨s', n', h1', h2', h3', h4'⟩ := hb
  have hal := (List.getElem?_eq_some_iff.1 h2).1
  have hbl := (List.getElem?_eq_some_iff.1 h2').1
  rw [starts_getElem? _ _ hal, Option.some.injEq] at h1
  rw [starts_getElem? _ _ hbl, Option.some.injEq] at h1'
  have e1 := sum_take_succ len h2
  have e2 := sum_take_succ len h2'
  rcases Nat.lt_trichotomy a b with h | h | h
  · have := sum_take_mono len (show a + 1 ≤ b from h)
    omega
  · exact h
  · have := sum_take_mono len (show b + 1 ≤ a from h)
    omega

lemma covers_exists {α : Type} (ls : List (List α)) (e : Nat) (h : e < ls.flatten.length) :
    ∃ b, Covers (starts 0 (ls.map List.length)) (ls.map List.length) b e := by
  obtain ⟨b, l, h1, h2, h3, _⟩ := flatten_index ls e h
  have hb := (List.getElem?_eq_some_iff.1 h1).1
  refine ⟨b, ((ls.take b).map List.length).sum, l.length, ?_, ?_, h2, h3⟩
  · rw [starts_getElem? _ _ (by simpa using hb), List.map_take]
  · rw [List.getElem?_map, h1]; rfl

/-- **C41**, exposures: the exposure ranges start at zero, each begins where the previous ends, the
last ends with the packed array, each has as many pixels as its exposure (at least one), and every
packed pixel is in exactly one range. -/
theorem C41_exposures {allbands : List β} {exps : List (Exp β K)} {g : Bands β} {p : Packed K}
    (h : buildPatch allbands exps = .ok (g, p)) :
    p.exposureN = exps.map size ∧ p.exposureStart.length = exps.length ∧
    p.exposureStart[0]? = some 0 ∧
    (∀ e s n : Nat, p.exposureStart[e]? = some s → p.exposureN[e]? = some n →
      0 < n ∧ (e + 1 < exps.length → p.exposureStart[e + 1]? = some (s + n)) ∧
      (e + 1 = exps.length → s + n = p.data.length)) ∧
    ∀ i < p.data.length, ∃! e, Covers p.exposureStart p.exposureN e i := by
  have B := built h
  have hl : (exps.map values).map List.length = exps.map size := by
    rw [List.map_map]
    exact List.map_congr_left fun x _ => values_length x
  have hlen : p.data.length = (exps.map size).sum := by
    rw [B.data, List.length_flatten, hl]
  have hne : exps.map size ≠ [] := by simpa using B.ne
  refine ⟨B.exposureN, ?_, ?_, ?_, ?_⟩
  · rw [B.exposureStart, starts_length _ hne, List.length_map]
  · rw [B.exposureStart]; rfl
  · intro e s n hs hn
    rw [B.exposureN] at hn
    have hel := (List.getElem?_eq_some_iff.1 hn).1
    rw [B.exposureStart, starts_getElem? _ _ hel, Option.some.injEq] at hs
    have hsucc := sum_take_succ _ hn
    refine ⟨?_, ?_, ?_⟩
    · obtain ⟨x, hx, rfl⟩ := List.mem_map.1 (List.mem_of_getElem? hn)
      exact B.pos x hx
    · intro he
      rw [B.exposureStart, starts_getElem? _ _ (by simpa using he)]
      congr 1
      omega
    · intro he
      rw [hlen]
      have : (exps.map size).take (e + 1) = exps.map size := by
        rw [he]
        conv_rhs => rw [← List.take_length (l := exps.map size)]
        rw [List.length_map]
      rw [this] at hsucc
      omega
  · intro i hi
    rw [B.data] at hi
    obtain ⟨e, he⟩ := covers_exists _ i hi
    rw [hl] at he
    rw [B.exposureStart, B.exposureN]
    exact ⟨e, he, fun e' he' => covers_unique _ he' he⟩

/-- **C41**, bands: there is one range of exposures per band of the patch, the bands are distinct,
every exposure is in the range of its own band and in no other, and the recorded numbers of
exposures agree. -/
theorem C41_bands {allbands : List β} {exps : List (Exp β K)} {g : Bands β} {p : Packed K}
    (h : buildPatch allbands exps = .ok (g, p)) :
    g.bandlist.Nodup ∧ p.bandN.length = g.bandlist.length ∧
    p.bandStart.length = g.bandlist.length ∧ g.nExpPerBand = p.bandN ∧
    (∀ (b : Nat) (v : β), g.bandlist[b]? = some v →
      p.bandN[b]? = some (exps.filter fun x => decide (x.1 = v)).length) ∧
    ∀ (e : Nat) (x : Exp β K), exps[e]? = some x → x.1 ∈ g.bandlist ∧
      ∀ b : Nat, Covers p.bandStart p.bandN b e ↔ g.bandlist[b]? = some x.1 := by
  have B := built h
  have hbn : p.bandN = (g.bandlist.map (ofBand exps)).map List.length := by
    rw [B.bandN, List.map_map]; rfl
  have hne : p.bandN ≠ [] := by
    intro h0
    rw [B.bandN, List.map_eq_nil_iff] at h0
    have := B.groups
    rw [h0] at this
    exact B.ne this.symm
  refine ⟨B.nodup, by rw [B.bandN, List.length_map], ?_, by rw [B.nExp, B.bandN], ?_, ?_⟩
  · rw [B.bandStart, starts_length _ hne, B.bandN, List.length_map]
  · intro b v hv
    rw [B.bandN, List.getElem?_map, hv]
    rfl
  · intro e x hx
    have hel := (List.getElem?_eq_some_iff.1 hx).1
    -- the range that covers `e` belongs to the band of `x`
    have key : ∀ b, Covers p.bandStart p.bandN b e → g.bandlist[b]? = some x.1 := by
      rintro b ⟨s, n, h1, h2, h3, h4⟩
      have hbl := (List.getElem?_eq_some_iff.1 h2).1
      rw [B.bandStart, starts_getElem? _ _ hbl, Option.some.injEq] at h1
      rw [hbn, List.getElem?_map] at h2
      cases hgb : (g.bandlist.map (ofBand exps))[b]? with
      | none => rw [hgb] at h2; cases h2
      | some l =>
        rw [hgb] at h2
        simp only [Option.map_some, Option.some.injEq] at h2
        have hb := flatten_block _ b l (e - s) hgb (by omega)
        rw [hbn, ← List.map_take] at h1
        rw [h1] at hb
        have : s + (e - s) = e := by omega
        rw [this, B.groups, hx] at hb
        rw [List.getElem?_map] at hgb
        cases hv : g.bandlist[b]? with
        | none => rw [hv] at hgb; cases hgb
        | some v =>
          rw [hv] at hgb
          simp only [Option.map_some, Option.some.injEq] at hgb
          have hmem : x ∈ ofBand exps v := by
            rw [hgb]
            exact List.mem_of_getElem? hb.symm
          simp only [ofBand, List.mem_filter, decide_eq_true_eq] at hmem
          rw [hmem.2]
    obtain ⟨b0, hb0⟩ := covers_exists (g.bandlist.map (ofBand exps)) e (by rw [B.groups]; exact hel)
    rw [← hbn, ← B.bandStart] at hb0
    have h0 := key b0 hb0
    refine ⟨List.mem_of_getElem? h0, fun b => ⟨key b, fun hb => ?_⟩⟩
    obtain ⟨l1, e1⟩ := List.getElem?_eq_some_iff.1 hb
    obtain ⟨l2, e2⟩ := List.getElem?_eq_some_iff.1 h0
    have : b = b0 := (List.Nodup.getElem_inj_iff B.nodup).1 (e1.trans e2.symm)
    rw [this]
    exact hb0

lemma bandNPix_eq {exps : List (Exp β K)} {g : Bands β} {p : Packed K} (B : Built exps g p)
    (hx : p.xpix.length = (exps.map size).sum) :
    p.bandNPix = g.bandlist.map fun v => ((ofBand exps v).map size).sum := by
  have hbn : p.bandN = (g.bandlist.map (ofBand exps)).map List.length := by
    rw [B.bandN, List.map_map]; rfl
  have hne : g.bandlist ≠ [] := by
    intro h0
    have := B.groups
    rw [h0] at this
    exact B.ne this.symm
  have hpos := List.length_pos_iff.2 hne
  have hbl : p.bandN.length = g.bandlist.length := by rw [B.bandN, List.length_map]
  set G := g.bandlist.map (ofBand exps) with hG
  -- the pixel start of band `b`
  have hS : ∀ b < g.bandlist.length,
      (p.bandStart.map fun b => p.exposureStart.getD b 0)[b]? =
        some (((g.bandlist.take b).map fun v => ((ofBand exps v).map size).sum).sum) := by
    intro b hb
    have hbs : p.bandStart[b]? = some (p.bandN.take b).sum := by
      rw [B.bandStart, starts_getElem? _ _ (by omega)]
    rw [List.getElem?_map, hbs]
    simp only [Option.map_some, Option.some.injEq]
    have hk : (p.bandN.take b).sum = ((G.take b).flatten).length := by
      rw [hbn, List.length_flatten, List.map_take]
    have hpre : exps.take ((G.take b).flatten).length = (G.take b).flatten := by
      conv_lhs => rw [← B.groups, ← hG, ← List.take_append_drop b G, List.flatten_append]
      simp
    have hlt : (p.bandN.take b).sum < exps.length := by
      have h1 : ∀ n ∈ p.bandN.drop b, 0 < n := by
        intro n hn
        have := List.mem_of_mem_drop hn
        rw [B.bandN] at this
        obtain ⟨v, hv, rfl⟩ := List.mem_map.1 this
        exact List.length_pos_iff.2 (B.nonempty v hv)
      have h2 : p.bandN.sum = exps.length := by
        rw [hbn, ← List.length_flatten, B.groups]
      have h3 : 0 < (p.bandN.drop b).sum := by
        cases hd : p.bandN.drop b with
        | nil =>
          have := congrArg List.length hd
          rw [List.length_drop] at this
          simp at this
          omega
        | cons n ns =>
          have := h1 n (by rw [hd]; simp)
          simp; omega
      have h4 : (p.bandN.take b).sum + (p.bandN.drop b).sum = p.bandN.sum := by
        rw [← List.sum_append, List.take_append_drop]
      omega
    rw [List.getD_eq_getElem?_getD, B.exposureStart,
      starts_getElem? _ _ (by rw [List.length_map]; exact hlt), Option.getD_some,
      ← List.map_take, hk, hpre, List.map_flatten, List.sum_flatten, hG, ← List.map_take,
      List.map_map, List.map_map]
    rfl
  have hlen : (p.bandStart.map fun b => p.exposureStart.getD b 0).length = g.bandlist.length := by
    rw [List.length_map, B.bandStart, starts_length _ (by
      intro h0; rw [h0] at hbl; simp at hbl; omega), hbl]
  -- the differences
  have hD : diff (p.bandStart.map fun b => p.exposureStart.getD b 0) =
      g.bandlist.dropLast.map fun v => ((ofBand exps v).map size).sum := by
    apply List.ext_getElem?
    intro k
    by_cases hk : k + 1 < g.bandlist.length
    · rw [diff_getElem? _ k _ _ (hS k (by omega)) (hS (k + 1) hk), List.getElem?_map,
        List.dropLast_eq_take, List.getElem?_take_of_lt (by omega),
        List.getElem?_eq_getElem (by omega)]
      simp only [Option.map_some, Option.some.injEq]
      rw [List.take_add_one, List.getElem?_eq_getElem (by omega), List.map_append,
        List.sum_append]
      simp only [Option.toList_some, List.map_cons, List.map_nil, List.sum_cons, List.sum_nil]
      omega
    · rw [List.getElem?_eq_none (by rw [diff_length, hlen]; omega),
        List.getElem?_eq_none (by simp; omega)]
  have htot : (exps.map size).sum =
      (g.bandlist.map fun v => ((ofBand exps v).map size).sum).sum := by
    conv_lhs => rw [← B.groups]
    rw [List.map_flatten, List.sum_flatten, List.map_map, List.map_map]
    rfl
  rw [B.bandNPix]
  simp only [hD, hx, htot]
  have hlast : g.bandlist = g.bandlist.dropLast ++ [g.bandlist.getLast hne] :=
    (List.dropLast_append_getLast hne).symm
  conv_rhs => rw [hlast, List.map_append]
  congr 1
  rw [List.map_singleton]
  congr 1
  conv_lhs =>
    enter [1]
    rw [hlast, List.map_append, List.sum_append]
  simp

/-- **C41**, pixels per band: the number recorded for a band is the sum over its exposures. -/
theorem C41_bandPixels {allbands : List β} {exps : List (Exp β K)} {g : Bands β} {p : Packed K}
    (h : buildPatch allbands exps = .ok (g, p))
    (hx : ∀ x ∈ exps, x.2.2.xpix.flatten.length = size x) :
    p.bandNPix.length = g.bandlist.length ∧
    ∀ (b : Nat) (v : β), g.bandlist[b]? = some v →
      p.bandNPix[b]? = some ((exps.filter fun x => decide (x.1 = v)).map size).sum := by
  have B := built h
  have hxl : p.xpix.length = (exps.map size).sum := by
    rw [B.xpix, List.length_flatten, List.map_map]
    congr 1
    exact List.map_congr_left hx
  rw [bandNPix_eq B hxl]
  refine ⟨by simp, fun b v hv => ?_⟩
  rw [List.getElem?_map, hv]
  rfl

lemma packLoop_succeeds {st : Loop K} {prev : Option β} {l : List (Exp β K)}
    (hpos : ∀ x ∈ l, 0 < size x)
    (hb : ∀ k ∈ bandIdxs st.b prev (l.map (·.1)), k < st.bandN.length) :
    ∃ st', packLoop st prev l = .ok st' := by
  induction l generalizing st prev with
  | nil => exact ⟨st, rfl⟩
  | cons x l ih =>
    obtain ⟨band, offset, p⟩ := x
    have h1 : ¬ p.flux.flatten.length = 0 := by
      have := hpos (band, offset, p) (by simp)
      simp only [size] at this
      omega
    simp only [List.map_cons, bandIdxs] at hb
    simp only [packLoop, packStep, if_neg h1]
    generalize (if prev.isSome && decide (prev ≠ some band) then st.b + 1 else st.b) = b'
      at hb ⊢
    rw [if_neg (by have := hb b' (by simp); omega)]
    apply ih fun y hy => hpos y (by simp [hy])
    intro k hk
    simp only [List.length_modify]
    exact hb k (by simp [hk])

/-- **C41**: packing succeeds exactly for a non-empty list of exposures that each have a known band
and at least one pixel, in the order of the band list. -/
theorem C41_succeeds_iff (allbands : List β) (exps : List (Exp β K)) :
    (∃ g p, buildPatch allbands exps = .ok (g, p)) ↔
      exps ≠ [] ∧ (∀ x ∈ exps, x.1 ∈ allbands) ∧ (∀ x ∈ exps, 0 < size x) ∧
      exps.Pairwise fun a b => allbands.idxOf a.1 ≤ allbands.idxOf b.1 := by
  constructor
  · rintro ⟨g, p, h⟩
    have B := built h
    simp only [buildPatch] at h
    split at h
    · cases h
    split at h
    · cases h
    rename_i g' hg
    simp only [groupBands] at hg
    split at hg
    · cases hg
    rename_i ids hids
    obtain ⟨hids', hall⟩ := bandIds_ok hids
    split at hg
    case isFalse => cases hg
    rename_i hsorted
    rw [nonDecreasing_iff, hids', List.pairwise_map, List.pairwise_map] at hsorted
    exact ⟨B.ne, fun x hx => hall _ (List.mem_map_of_mem hx), B.pos, hsorted⟩
  · rintro ⟨hne, hall, hpos, hsort⟩
    have hids := bandIds_eq (allbands := allbands) (bands := exps.map (·.1)) (by
      intro b hb
      obtain ⟨x, hx, rfl⟩ := List.mem_map.1 hb
      exact hall x hx)
    have hlt : ∀ i ∈ (exps.map (·.1)).map (fun b => allbands.idxOf b), i < allbands.length := by
      intro i hi
      simp only [List.map_map, List.mem_map, Function.comp_apply] at hi
      obtain ⟨x, hx, rfl⟩ := hi
      exact List.idxOf_lt_length_iff.2 (hall x hx)
    have hg : groupBands allbands (exps.map (·.1)) =
        .ok { bandlist := (uniq allbands.length ((exps.map (·.1)).map
                fun b => allbands.idxOf b)).filterMap fun i => allbands[i]?
              nExpPerBand := (uniq allbands.length ((exps.map (·.1)).map
                fun b => allbands.idxOf b)).map
                fun i => ((exps.map (·.1)).map fun b => allbands.idxOf b).count i } := by
      simp only [groupBands, hids]
      rw [if_pos]
      rw [nonDecreasing_iff, List.pairwise_map, List.pairwise_map]
      exact hsort
    have humem : ∀ i ∈ uniq allbands.length ((exps.map (·.1)).map fun b => allbands.idxOf b),
        ∃ x ∈ allbands, allbands.idxOf x = i := by
      intro i hi
      rw [mem_uniq hlt] at hi
      simp only [List.map_map, List.mem_map, Function.comp_apply] at hi
      obtain ⟨x, hx, rfl⟩ := hi
      exact ⟨x.1, hall x hx, rfl⟩
    have hlen := congrArg List.length (bandlist_spec allbands _ humem).1
    rw [List.length_map] at hlen
    have hidx := bandIdxs_none (fun b => allbands.idxOf b) allbands (idxOf_inj allbands)
      (uniq allbands.length ((exps.map (·.1)).map fun b => allbands.idxOf b))
      (uniq_sorted _ _) (exps.map (·.1)) (by rw [List.pairwise_map]; exact hsort)
      (by
        intro b hb
        obtain ⟨x, hx, rfl⟩ := List.mem_map.1 hb
        exact hall x hx)
      (by intro v; rw [mem_uniq hlt]; simp)
    obtain ⟨st, hst⟩ := packLoop_succeeds (K := K)
      (st := { b := 0, i := 0,
               bandN := List.replicate ((uniq allbands.length ((exps.map (·.1)).map
                  fun b => allbands.idxOf b)).filterMap fun i => allbands[i]?).length 0,
               exposureStart := [], exposureN := [], data := [], ierr := [], xpix := [],
               ypix := [] }) (prev := none) hpos (by
        intro k hk
        simp only [List.length_replicate, hlen]
        have hm := List.mem_map_of_mem (f := fun k => (uniq allbands.length
          ((exps.map (·.1)).map fun b => allbands.idxOf b))[k]?) hk
        rw [hidx] at hm
        obtain ⟨x, _, hx⟩ := List.mem_map.1 hm
        exact (List.getElem?_eq_some_iff.1 hx.symm).1)
    obtain ⟨h1, _, _, h4, _⟩ := packLoop_ok hst
    have hdata : st.data.flatten.length = st.i := by
      rw [h1, h4]
      simp only [List.nil_append, Nat.zero_add]
      rw [map_flatten_flatten, List.length_flatten, List.map_map]
      congr 1
      apply List.map_congr_left
      intro x _
      simp only [Function.comp_apply]
      rw [tweak_flatten, values_length]
    have hp : ∃ p, packPix ((uniq allbands.length ((exps.map (·.1)).map
                  fun b => allbands.idxOf b)).filterMap fun i => allbands[i]?).length exps =
        .ok p := by
      simp only [packPix, hst]
      rw [if_pos hdata]
      exact ⟨_, rfl⟩
    obtain ⟨p, hp⟩ := hp
    refine ⟨{ bandlist := (uniq allbands.length ((exps.map (·.1)).map
                fun b => allbands.idxOf b)).filterMap fun i => allbands[i]?
              nExpPerBand := (uniq allbands.length ((exps.map (·.1)).map
                fun b => allbands.idxOf b)).map
                fun i => ((exps.map (·.1)).map fun b => allbands.idxOf b).count i }, p, ?_⟩
    simp only [buildPatch]
    rw [if_neg (by simpa using hne)]
    simp only [hg, hp]

/-! ## C42: splitting -/

/-- **C42**, exposures: splitting a packed array by exposure returns the values of each exposure. -/
theorem C42_splitPix {allbands : List β} {exps : List (Exp β K)} {g : Bands β} {p : Packed K}
    (h : buildPatch allbands exps = .ok (g, p))
    (hi : ∀ x ∈ exps, x.2.2.ierr.flatten.length = size x)
    (hx : ∀ x ∈ exps, x.2.2.xpix.flatten.length = size x)
    (hy : ∀ x ∈ exps, x.2.2.ypix.flatten.length = size x) :
    splitPix p.data p.exposureN = exps.map values ∧
    splitPix p.ierr p.exposureN = exps.map (fun x => x.2.2.ierr.flatten) ∧
    splitPix p.xpix p.exposureN = exps.map (fun x => x.2.2.xpix.flatten) ∧
    splitPix p.ypix p.exposureN = exps.map (fun x => x.2.2.ypix.flatten) := by
  have B := built h
  have gen : ∀ (f : Exp β K → List K), (∀ x ∈ exps, (f x).length = size x) →
      splitPix (exps.map f).flatten (exps.map size) = exps.map f := by
    intro f hf
    have : exps.map size = (exps.map f).map List.length := by
      rw [List.map_map]
      exact List.map_congr_left fun x hx => (hf x hx).symm
    rw [this]
    exact npSplit_flatten _ (by simpa using B.ne)
  rw [B.exposureN, B.data, B.ierr, B.xpix, B.ypix]
  exact ⟨gen _ fun x _ => values_length x, gen _ hi, gen _ hx, gen _ hy⟩

/-- **C42**, bands: splitting a packed array by band returns, for each band of the patch, the
concatenated values of its exposures. -/
theorem C42_splitBand {allbands : List β} {exps : List (Exp β K)} {g : Bands β} {p : Packed K}
    (h : buildPatch allbands exps = .ok (g, p))
    (hi : ∀ x ∈ exps, x.2.2.ierr.flatten.length = size x)
    (hx : ∀ x ∈ exps, x.2.2.xpix.flatten.length = size x) :
    splitBand p.data p.bandNPix = g.bandlist.map (fun v =>
      ((exps.filter fun x => decide (x.1 = v)).map values).flatten) ∧
    splitBand p.ierr p.bandNPix = g.bandlist.map (fun v =>
      ((exps.filter fun x => decide (x.1 = v)).map fun x => x.2.2.ierr.flatten).flatten) := by
  have B := built h
  have hxl : p.xpix.length = (exps.map size).sum := by
    rw [B.xpix, List.length_flatten, List.map_map]
    congr 1
    exact List.map_congr_left hx
  have hne : g.bandlist ≠ [] := by
    intro h0
    have := B.groups
    rw [h0] at this
    exact B.ne this.symm
  have gen : ∀ (f : Exp β K → List K), (∀ x ∈ exps, (f x).length = size x) →
      splitBand (exps.map f).flatten p.bandNPix =
        g.bandlist.map fun v => ((ofBand exps v).map f).flatten := by
    intro f hf
    have h1 : (exps.map f).flatten =
        (g.bandlist.map fun v => ((ofBand exps v).map f).flatten).flatten := by
      conv_lhs => rw [← B.groups]
      rw [List.map_flatten, List.map_map]
      exact map_flatten_flatten _ _
    have h2 : p.bandNPix =
        (g.bandlist.map fun v => ((ofBand exps v).map f).flatten).map List.length := by
      rw [bandNPix_eq B hxl, List.map_map]
      apply List.map_congr_left
      intro v _
      simp only [Function.comp_apply]
      rw [List.length_flatten, List.map_map]
      congr 1
      apply List.map_congr_left
      intro x hx
      exact (hf x (List.mem_of_mem_filter hx)).symm
    rw [h1, h2]
    exact npSplit_flatten _ (by simpa using hne)
  rw [B.data, B.ierr]
  exact ⟨gen _ fun x _ => values_length x, gen _ hi⟩

/-- **C42**, residuals: splitting a residual array made of one piece per exposure returns the
pieces. -/
theorem C42_residuals (pieces : List (List K)) (h : pieces ≠ []) :
    unpackResiduals pieces.flatten (pieces.map List.length) = pieces := by
  simp only [unpackResiduals, cumsum]
  rw [cumsumFrom_dropLast]
  exact npSplit_flatten pieces h

end

/-- The index arrays of a packing, for display. -/
def summary {K β : Type} : Except Err (Bands β × Packed K) → Option (List β × List (List Nat))
  | .ok (g, p) => some (g.bandlist, [g.nExpPerBand, p.bandStart, p.bandN, p.bandNPix,
      p.exposureStart, p.exposureN])
  | .error _ => none

/-- An exposure with the given number of pixels. -/
def blank (b n : Nat) : Exp Nat ℚ :=
  let r : List (List ℚ) := [List.replicate n 1]
  (b, some 1, { flux := r, ierr := r, xpix := r, ypix := r })

/-- Three exposures in two of three bands. -/
example : summary (buildPatch [10, 20, 30] [blank 10 2, blank 10 1, blank 30 4]) =
    some ([10, 30], [[2, 1], [0, 2], [2, 1], [3, 4], [0, 2, 3], [2, 1, 4]]) := by decide +kernel

/-- Exposures out of band order are refused. -/
example : summary (buildPatch [10, 20, 30] [blank 30 2, blank 10 1]) = none := by decide +kernel

end Forcepho.Patch
