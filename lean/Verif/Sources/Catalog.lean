import Verif.Sources.Props

/-! # Properties C24 and C25: catalogs and kernel proposals -/

set_option autoImplicit false

namespace Forcepho.Sources

variable {K : Type}

/-! ## C24 -/

theorem readAttrs_spec (r : CatRow K) : ∀ (l : List Attr) (a a' : Attr → K), l.Nodup →
    readAttrs r a l = .ok a' →
    (∀ n ∈ l, r.get n.name = .ok (a' n)) ∧ ∀ n, n ∉ l → a' n = a n := by
  intro l
  induction l with
  | nil => intro a a' _ h; cases h; exact ⟨by simp, fun _ _ => rfl⟩
  | cons n t ih =>
    intro a a' hn h
    obtain ⟨h1, h2⟩ := List.nodup_cons.1 hn
    unfold readAttrs at h
    cases hg : r.get n.name with
    | error e => rw [hg] at h; cases h
    | ok v =>
      rw [hg] at h
      obtain ⟨i1, i2⟩ := ih _ _ h2 h
      have hv : a' n = v := by rw [i2 n h1]; simp
      refine ⟨?_, ?_⟩
      · intro m hm
        rcases List.mem_cons.1 hm with rfl | hm
        · rw [hg, hv]
        · exact i1 m hm
      · intro m hm
        simp only [List.mem_cons, not_or] at hm
        rw [i2 m hm.2, Function.update_of_ne hm.1]

theorem readAttrs_ok (r : CatRow K) : ∀ (l : List Attr) (a : Attr → K),
    (∀ n ∈ l, ∃ v, r.get n.name = .ok v) → ∃ a', readAttrs r a l = .ok a' := by
  intro l
  induction l with
  | nil => intro a _; exact ⟨a, rfl⟩
  | cons n t ih =>
    intro a h
    obtain ⟨v, hv⟩ := h n (by simp)
    obtain ⟨a', ha⟩ := ih (Function.update a n v) (fun m hm => h m (by simp [hm]))
    exact ⟨a', by simp [readAttrs, hv, ha]⟩

theorem readCols_spec (r : CatRow K) : ∀ (l : List String) (vs : List K),
    readCols r l = .ok vs → vs.length = l.length ∧
      ∀ (i : Nat) (n : String), l[i]? = some n → ∃ v, vs[i]? = some v ∧ r.get n = .ok v := by
  intro l
  induction l with
  | nil => intro vs h; cases h; exact ⟨rfl, by simp⟩
  | cons n t ih =>
    intro vs h
    unfold readCols at h
    cases hg : r.get n with
    | error e => rw [hg] at h; cases h
    | ok v =>
      rw [hg] at h
      cases hc : readCols r t with
      | error e => rw [hc] at h; cases h
      | ok ws =>
        rw [hc] at h
        cases h
        obtain ⟨i1, i2⟩ := ih ws hc
        refine ⟨by simp [i1], ?_⟩
        intro i m hm
        cases i with
        | zero =>
          simp only [List.getElem?_cons_zero, Option.some.injEq] at hm
          subst hm
          exact ⟨v, rfl, hg⟩
        | succ i => simpa using i2 i m (by simpa using hm)

theorem readCols_ok (r : CatRow K) : ∀ (l : List String) (vs : List K), vs.length = l.length →
    (∀ (i : Nat) (n : String) (v : K), l[i]? = some n → vs[i]? = some v → r.get n = .ok v) →
    readCols r l = .ok vs := by
  intro l
  induction l with
  | nil => intro vs h _; simp at h; subst h; rfl
  | cons n t ih =>
    intro vs h hg
    cases vs with
    | nil => simp at h
    | cons v vs =>
      have h0 := hg 0 n v rfl rfl
      have := ih vs (by simpa using h) (fun i m w hm hw => hg (i + 1) m w (by simpa using hm)
        (by simpa using hw))
      simp [readCols, h0, this]

/-- Lookup in a row made of keys and values. -/
theorem get_zip (l : List (String × K)) (hn : (l.map (·.1)).Nodup) (i : Nat) (n : String) (v : K)
    (h : l[i]? = some (n, v)) : CatRow.get l n = .ok v := by
  unfold CatRow.get
  have : l.find? (fun e => decide (e.1 = n)) = some (n, v) := by
    induction l generalizing i with
    | nil => simp at h
    | cons p t ih =>
      cases i with
      | zero =>
        simp only [List.getElem?_cons_zero, Option.some.injEq] at h
        subst h
        simp
      | succ i =>
        simp only [List.getElem?_cons_succ] at h
        rw [List.map_cons, List.nodup_cons] at hn
        have hne : p.1 ≠ n := by
          rintro rfl
          exact hn.1 (List.mem_map_of_mem (f := (·.1)) (List.mem_of_getElem? h))
        rw [List.find?_cons_of_neg (by simpa using hne)]
        exact ih hn.2 i h
  rw [this]

/-- What a row written for a source contains. -/
theorem toCatalogRow_spec (toK : Nat → K) (s : Source K) (hs : s.WF)
    (hn : (["id"] ++ s.filternames ++ (shapeCols s.cls).map Attr.name).Nodup) :
    ∃ r, toCatalogRow toK s = .ok r ∧ CatRow.get r "id" = .ok (toK s.id) ∧
      (∀ a ∈ shapeCols s.cls, CatRow.get r a.name = .ok (s.attr a)) ∧
      ∀ (i : Nat) (n : String) (x : K), s.filternames[i]? = some n → s.flux[i]? = some x →
        CatRow.get r n = .ok x := by
  unfold Source.WF at hs
  set r : CatRow K := ("id", toK s.id) :: (s.filternames.zip s.flux ++
        (shapeCols s.cls).map fun a => (a.name, s.attr a)) with hr
  have hcols : r.map (·.1) = ["id"] ++ s.filternames ++ (shapeCols s.cls).map Attr.name := by
    simp [hr, List.map_append, List.map_fst_zip (l₁ := s.filternames) (l₂ := s.flux) (by omega),
      Function.comp_def]
  rw [← hcols] at hn
  refine ⟨r, ?_, ?_, ?_, ?_⟩
  · unfold toCatalogRow
    simp only [← hcols]
    rw [if_pos hn, if_pos (by omega)]
  · exact get_zip r hn 0 _ _ rfl
  · intro a ha
    obtain ⟨k, hk⟩ := List.getElem?_of_mem ha
    refine get_zip r hn (1 + (s.filternames.length + k)) _ _ ?_
    rw [hr, Nat.add_comm, List.getElem?_cons_succ, List.getElem?_append_right (by simp; omega)]
    have : s.filternames.length + k - (s.filternames.zip s.flux).length = k := by simp; omega
    rw [this, List.getElem?_map, hk]
    rfl
  · intro i n x h1 h2
    refine get_zip r hn (i + 1) _ _ ?_
    have hi : i < s.filternames.length := (List.getElem?_eq_some_iff.1 h1).1
    rw [hr, List.getElem?_cons_succ, List.getElem?_append_left (by simp; omega)]
    rw [List.getElem?_zip_eq_some]
    exact ⟨h1, h2⟩

theorem shapeCols_nodup (c : Cls) : (shapeCols c).Nodup := by
  cases c with
  | galaxy b => cases b <;> decide
  | conformal b => cases b <;> decide
  | _ => decide

/-- The classes a scene can be built from. -/
def Buildable (c : Cls) : Prop := (∃ b, c = .galaxy b) ∨ c = .conformal true

theorem fromCatalogRow_spec (s s' : Source K) (r : CatRow K) (hc : s.cls ≠ .conformal false)
    (h : fromCatalogRow s r = .ok s') :
    s'.cls = s.cls ∧ s'.filternames = s.filternames ∧ s'.WF ∧ s'.fixed = s.fixed ∧
      (∀ a ∈ shapeCols s.cls, r.get a.name = .ok (s'.attr a)) ∧
      ∀ (i : Nat) (n : String), s.filternames[i]? = some n →
        ∃ v, s'.flux[i]? = some v ∧ r.get n = .ok v := by
  unfold fromCatalogRow at h
  rw [if_neg hc] at h
  cases ha : readAttrs r s.attr (shapeCols s.cls) with
  | error e => rw [ha] at h; cases h
  | ok a =>
    rw [ha] at h
    simp only at h
    cases hf : readCols r s.filternames with
    | error e => rw [hf] at h; cases h
    | ok fl =>
      rw [hf] at h
      cases h
      obtain ⟨a1, _⟩ := readAttrs_spec r _ _ _ (shapeCols_nodup _) ha
      obtain ⟨c1, c2⟩ := readCols_spec r _ _ hf
      exact ⟨rfl, rfl, c1, rfl, a1, c2⟩

theorem construct_ok (zero : K) (dflt : Attr → K) (c : Cls) (fs : List String) (hc : Buildable c) :
    ∃ s, construct zero dflt c fs = .ok s ∧ s.cls = c ∧ s.filternames = fs ∧ s.fixed = false := by
  rcases hc with ⟨b, rfl⟩ | rfl <;> exact ⟨_, rfl, rfl, rfl, rfl⟩

/-- What `Scene.from_catalog` stores, source by source, before ids are assigned. -/
theorem fromRows_spec (zero : K) (dflt : Attr → K) (c : Cls) (fs : List String) (hc : Buildable c) :
    ∀ (rows : List (CatRow K)) (sc : Scene K), fromRows zero dflt c fs rows = .ok sc →
    sc.length = rows.length ∧
    ∀ (i : Nat) (r : CatRow K) (s : Source K), rows[i]? = some r → sc[i]? = some s →
      s.cls = c ∧ s.filternames = fs ∧ s.WF ∧ s.fixed = false ∧
      (∀ a ∈ shapeCols c, r.get a.name = .ok (s.attr a)) ∧
      ∀ (j : Nat) (n : String), fs[j]? = some n → ∃ v, s.flux[j]? = some v ∧ r.get n = .ok v := by
  intro rows
  induction rows with
  | nil => intro sc h; cases h; exact ⟨rfl, by simp⟩
  | cons r rs ih =>
    intro sc h
    obtain ⟨s0, hs0, hcl, hfn, hfx⟩ := construct_ok zero dflt c fs hc
    unfold fromRows at h
    rw [hs0] at h
    simp only at h
    cases hr : fromCatalogRow s0 r with
    | error e => rw [hr] at h; cases h
    | ok s' =>
      rw [hr] at h
      simp only at h
      cases ht : fromRows zero dflt c fs rs with
      | error e => rw [ht] at h; cases h
      | ok t =>
        rw [ht] at h
        cases h
        obtain ⟨i1, i2⟩ := ih t ht
        refine ⟨by simp [i1], ?_⟩
        intro i x s hx hs
        cases i with
        | zero =>
          simp only [List.getElem?_cons_zero, Option.some.injEq] at hx hs
          subst hx hs
          have hne : s0.cls ≠ .conformal false := by
            rw [hcl]
            rcases hc with ⟨b, rfl⟩ | rfl <;> simp
          have := fromCatalogRow_spec s0 s' r hne hr
          rw [hcl, hfn, hfx] at this
          exact this
        | succ i => exact i2 i x s (by simpa using hx) (by simpa using hs)

theorem identify_at (sc : Scene K) (i : Nat) (s : Source K) (h : sc[i]? = some s) :
    (identify sc)[i]? = some { s with id := i } := by
  unfold identify
  simp [List.getElem?_mapIdx, h]

theorem toCatalog_spec (toK : Nat → K) : ∀ (sc : Scene K), (∀ s ∈ sc, s.WF ∧
    (["id"] ++ s.filternames ++ (shapeCols s.cls).map Attr.name).Nodup) →
    ∃ rows, toCatalog toK sc = .ok rows ∧ rows.length = sc.length ∧
      ∀ (i : Nat) (s : Source K), sc[i]? = some s → ∃ r, rows[i]? = some r ∧
        CatRow.get r "id" = .ok (toK s.id) ∧
        (∀ a ∈ shapeCols s.cls, CatRow.get r a.name = .ok (s.attr a)) ∧
        ∀ (j : Nat) (n : String) (x : K), s.filternames[j]? = some n → s.flux[j]? = some x →
          CatRow.get r n = .ok x := by
  intro sc
  induction sc with
  | nil => intro _; exact ⟨[], rfl, rfl, by simp⟩
  | cons s t ih =>
    intro h
    obtain ⟨r, hr, hr'⟩ := toCatalogRow_spec toK s (h s (by simp)).1 (h s (by simp)).2
    obtain ⟨rows, h1, h2, h3⟩ := ih (fun x hx => h x (by simp [hx]))
    refine ⟨r :: rows, by simp [toCatalog, hr, h1], by simp [h2], ?_⟩
    intro i x hx
    cases i with
    | zero =>
      simp only [List.getElem?_cons_zero, Option.some.injEq] at hx
      subst hx
      exact ⟨r, rfl, hr'⟩
    | succ i => simpa using h3 i x (by simpa using hx)

/-- C24, partial: a scene built from a catalog (galaxies of any kind that can be built) writes
back a catalog with the same number of rows in the same order, with every band and every shape
column unchanged.
Missing: the `id` column, which becomes the row number (see `C24_refuted_id`). -/
theorem C24_rows_partial (toK : Nat → K) (zero : K) (dflt : Attr → K) (c : Cls) (fs : List String)
    (hc : Buildable c) (hn : (["id"] ++ fs ++ (shapeCols c).map Attr.name).Nodup)
    (rows : List (CatRow K)) (sc : Scene K) (h : fromCatalog zero dflt c fs rows = .ok sc) :
    ∃ out, toCatalog toK sc = .ok out ∧ out.length = rows.length ∧
      ∀ (i : Nat) (r : CatRow K), rows[i]? = some r → ∃ r', out[i]? = some r' ∧
        (∀ n, n ∈ fs ∨ (∃ a ∈ shapeCols c, n = a.name) → ∃ v, CatRow.get r n = .ok v ∧
          CatRow.get r' n = .ok v) ∧
        CatRow.get r' "id" = .ok (toK i) := by
  unfold fromCatalog at h
  cases ht : fromRows zero dflt c fs rows with
  | error e => rw [ht] at h; cases h
  | ok t =>
    rw [ht] at h
    cases h
    obtain ⟨h1, h2⟩ := fromRows_spec zero dflt c fs hc rows t ht
    have hlen : (identify t).length = t.length := by simp [identify]
    have hprop : ∀ (i : Nat) (r : CatRow K), rows[i]? = some r → ∃ s, t[i]? = some s := by
      intro i r hr
      have := (List.getElem?_eq_some_iff.1 hr).1
      exact ⟨t[i]'(by omega), List.getElem?_eq_getElem _⟩
    obtain ⟨out, o1, o2, o3⟩ := toCatalog_spec toK (identify t) (by
      intro s hs
      obtain ⟨i, hi⟩ := List.getElem?_of_mem hs
      have hil : i < t.length := by rw [← hlen]; exact (List.getElem?_eq_some_iff.1 hi).1
      have hti : t[i]? = some t[i] := List.getElem?_eq_getElem hil
      rw [identify_at t i _ hti] at hi
      have hr : rows[i]? = some (rows[i]'(by omega)) := List.getElem?_eq_getElem _
      obtain ⟨k1, k2, k3, _⟩ := h2 i _ _ hr hti
      cases hi
      refine ⟨k3, ?_⟩
      simp only [k1, k2]
      exact hn)
    refine ⟨out, o1, by omega, ?_⟩
    intro i r hr
    obtain ⟨s, hs⟩ := hprop i r hr
    obtain ⟨k1, k2, k3, k4, k5, k6⟩ := h2 i r s hr hs
    obtain ⟨r', g1, g2, g3, g4⟩ := o3 i _ (identify_at t i s hs)
    refine ⟨r', g1, ?_, g2⟩
    rintro n (hn' | ⟨a, ha, rfl⟩)
    · obtain ⟨j, hj⟩ := List.getElem?_of_mem hn'
      obtain ⟨v, hv, hg⟩ := k6 j n hj
      exact ⟨v, hg, g4 j n v (by simpa [k2] using hj) hv⟩
    · exact ⟨_, k5 a ha, g3 a (by simpa [k1] using ha)⟩

/-- C24, the other direction: writing a scene of galaxies of one class and one band list to a
catalog and building a scene from it gives sources that report the same parameter vectors. -/
theorem C24_scene (toK : Nat → K) (zero : K) (dflt : Attr → K) (c : Cls) (fs : List String)
    (hc : Buildable c) (hn : (["id"] ++ fs ++ (shapeCols c).map Attr.name).Nodup)
    (sc : Scene K) (hsc : ∀ s ∈ sc, s.WF ∧ s.cls = c ∧ s.filternames = fs) :
    ∃ rows sc', toCatalog toK sc = .ok rows ∧ fromCatalog zero dflt c fs rows = .ok sc' ∧
      sc'.length = sc.length ∧
      ∀ (i : Nat) (s : Source K), sc[i]? = some s → ∃ s', sc'[i]? = some s' ∧
        s'.cls = s.cls ∧ s'.filternames = s.filternames ∧ s'.id = i ∧ s'.fixed = false ∧
        s'.flux = s.flux ∧ ∀ a ∈ shapeCols c, s'.attr a = s.attr a := by
  obtain ⟨rows, r1, r2, r3⟩ := toCatalog_spec toK sc (by
    intro s hs
    obtain ⟨a, b, d⟩ := hsc s hs
    refine ⟨a, ?_⟩
    rw [b, d]; exact hn)
  -- building succeeds
  have hbuild : ∀ (rows : List (CatRow K)) (sc : Scene K),
      (∀ s ∈ sc, s.WF ∧ s.cls = c ∧ s.filternames = fs) → rows.length = sc.length →
      (∀ (i : Nat) (s : Source K), sc[i]? = some s → ∃ r, rows[i]? = some r ∧
        (∀ a ∈ shapeCols s.cls, CatRow.get r a.name = .ok (s.attr a)) ∧
        ∀ (j : Nat) (n : String) (x : K), s.filternames[j]? = some n → s.flux[j]? = some x →
          CatRow.get r n = .ok x) →
      ∃ t, fromRows zero dflt c fs rows = .ok t ∧ t.length = sc.length ∧
        ∀ (i : Nat) (s : Source K), sc[i]? = some s → ∃ s', t[i]? = some s' ∧
          s'.cls = s.cls ∧ s'.filternames = s.filternames ∧ s'.fixed = false ∧
          s'.flux = s.flux ∧ ∀ a ∈ shapeCols c, s'.attr a = s.attr a := by
    intro rows
    induction rows with
    | nil =>
      intro sc _ hl _
      have : sc = [] := List.length_eq_zero_iff.1 (by simpa using hl.symm)
      subst this
      exact ⟨[], rfl, rfl, by simp⟩
    | cons r rs ih =>
      intro sc hsc hl hr
      cases sc with
      | nil => simp at hl
      | cons s t =>
        obtain ⟨w, cl, fn⟩ := hsc s (by simp)
        obtain ⟨r0, e0, hat, hfl⟩ := hr 0 s rfl
        simp only [List.getElem?_cons_zero, Option.some.injEq] at e0
        subst e0
        obtain ⟨s0, hs0, hcl, hfn, hfx⟩ := construct_ok zero dflt c fs hc
        have hne : s0.cls ≠ .conformal false := by
          rw [hcl]
          rcases hc with ⟨b, rfl⟩ | rfl <;> simp
        rw [cl] at hat
        rw [fn] at hfl
        unfold Source.WF at w
        rw [fn] at w
        obtain ⟨a', ha'⟩ := readAttrs_ok r (shapeCols c) s0.attr (fun a ha => ⟨_, hat a ha⟩)
        have hcols := readCols_ok r fs s.flux w hfl
        have hrow : fromCatalogRow s0 r = .ok { s0 with attr := a', flux := s.flux } := by
          unfold fromCatalogRow
          rw [if_neg hne, hcl, ha', hfn, hcols]
        obtain ⟨ra, _⟩ := readAttrs_spec r _ _ _ (shapeCols_nodup c) ha'
        obtain ⟨u, hu, hul, hup⟩ := ih t (fun x hx => hsc x (by simp [hx])) (by simpa using hl)
          (fun i x hx => by
            obtain ⟨r', q1, q2⟩ := hr (i + 1) x (by simpa using hx)
            exact ⟨r', by simpa using q1, q2⟩)
        refine ⟨{ s0 with attr := a', flux := s.flux } :: u,
          by simp only [fromRows, hs0, hrow, hu], by simp [hul], ?_⟩
        intro i x hx
        cases i with
        | zero =>
          simp only [List.getElem?_cons_zero, Option.some.injEq] at hx
          subst hx
          refine ⟨_, rfl, by simp [hcl, cl], by simp [hfn, fn], hfx, rfl, ?_⟩
          intro a ha
          have h1 := ra a ha
          rw [hat a ha] at h1
          exact (Except.ok.inj h1).symm
        | succ i => simpa using hup i x (by simpa using hx)
  obtain ⟨t, t1, t2, t3⟩ := hbuild rows sc hsc r2 (fun i s hs => by
    obtain ⟨r, q1, _, q3, q4⟩ := r3 i s hs
    exact ⟨r, q1, q3, q4⟩)
  refine ⟨rows, identify t, r1, by simp [fromCatalog, t1], by simp [identify, t2], ?_⟩
  intro i s hs
  obtain ⟨s', e1, e2, e3, e4, e5, e6⟩ := t3 i s hs
  exact ⟨_, identify_at t i s' e1, e2, e3, rfl, e4, e5, e6⟩

/-- An input catalog of one galaxy whose id is 57. -/
def catRows : List (CatRow Int) :=
  [[("id", 57), ("F1", 3), ("ra", 1), ("dec", 2), ("q", 1), ("pa", 0), ("sersic", 4),
    ("rhalf", 5)]]

/-- C24 is false for the `id` column: it is replaced by the position. -/
theorem C24_refuted_id : ∃ (sc : Scene Int) (out : List (CatRow Int)),
    fromCatalog 0 (fun _ => 0) (.galaxy true) ["F1"] catRows = .ok sc ∧
    toCatalog Int.ofNat sc = .ok out ∧
    catRows.map (fun r => r.get "id") = [.ok 57] ∧ out.map (fun r => r.get "id") = [.ok 0] :=
  ⟨_, _, rfl, rfl, rfl, rfl⟩

example : (["id"] ++ ["F1"] ++ (shapeCols (.galaxy true)).map Attr.name).Nodup := by decide

/-- C24 fails outright for the classes that cannot be constructed or assigned from a row: any
catalog with at least one row raises. -/
theorem C24_other_classes (zero : K) (dflt : Attr → K) (c : Cls) (hc : ¬ Buildable c)
    (fs : List String) (r : CatRow K) (rs : List (CatRow K)) :
    ∃ e, fromCatalog zero dflt c fs (r :: rs) = .error e := by
  unfold fromCatalog fromRows
  cases c with
  | galaxy b => exact absurd (Or.inl ⟨b, rfl⟩) hc
  | conformal b =>
    cases b with
    | true => exact absurd (Or.inr rfl) hc
    | false =>
      simp only [construct]
      have : ∃ e, fromCatalogRow
          { cls := .conformal false, filternames := fs, flux := List.replicate fs.length zero,
            attr := dflt, id := 0, fixed := false } r = .error e := by
        unfold fromCatalogRow
        simp only [if_true]
        split
        · exact ⟨_, rfl⟩
        · split
          · exact ⟨_, rfl⟩
          · exact ⟨_, rfl⟩
      obtain ⟨e, he⟩ := this
      rw [he]
      exact ⟨e, rfl⟩
  | base => exact ⟨_, rfl⟩
  | star => exact ⟨_, rfl⟩
  | simple => exact ⟨_, rfl⟩

/-- C24 for rows of a `ConformalShearGalaxy` with fixed Sersic parameters: a missing coordinate or axis ratio is
reported as a missing column, otherwise storing the axis ratio fails. -/
theorem C24_conformal_error (zero : K) (dflt : Attr → K) (fs : List String) (r : CatRow K) (rs : List (CatRow K)) :
    fromCatalog zero dflt (.conformal false) fs (r :: rs) =
      .error (if "ra" ∈ r.map (·.1) ∧ "dec" ∈ r.map (·.1) ∧ "q" ∈ r.map (·.1) then .attributeError
        else .valueError) := by
  have key : ∀ name : String, (r.get name = .error .valueError ∧ name ∉ r.map (·.1)) ∨
      ((∃ v, r.get name = .ok v) ∧ name ∈ r.map (·.1)) := by
    intro name
    unfold CatRow.get
    cases h : r.find? (fun e => e.1 = name) with
    | none =>
      left
      refine ⟨rfl, ?_⟩
      intro hm
      obtain ⟨e, he, rfl⟩ := List.mem_map.mp hm
      have := List.find?_eq_none.mp h _ he
      simp at this
    | some e =>
      right
      refine ⟨⟨_, rfl⟩, ?_⟩
      have h1 := List.mem_of_find?_eq_some h
      have h2 : e.1 = name := by simpa using List.find?_some h
      exact List.mem_map.mpr ⟨e, h1, h2⟩
  have e1 : Attr.ra.name = "ra" := rfl
  have e2 : Attr.dec.name = "dec" := rfl
  have e3 : Attr.q.name = "q" := rfl
  unfold fromCatalog fromRows
  simp only [construct, fromCatalogRow, if_true, readAttrs, e1, e2, e3]
  rcases key "ra" with ⟨h1, n1⟩ | ⟨⟨v1, h1⟩, n1⟩
  · rw [h1, if_neg (fun h => n1 h.1)]
  · rcases key "dec" with ⟨h2, n2⟩ | ⟨⟨v2, h2⟩, n2⟩
    · simp only [h1, h2]
      rw [if_neg (fun h => n2 h.2.1)]
    · rcases key "q" with ⟨h3, n3⟩ | ⟨⟨v3, h3⟩, n3⟩
      · simp only [h1, h2, h3]
        rw [if_neg (fun h => n3 h.2.2)]
      · simp only [h1, h2, h3]
        rw [if_pos ⟨n1, n2, n3⟩]

/-! ## C25 -/

/-- Specification of one buffer: values, then whatever was in memory. -/
def Filled (buf mem vals : List K) : Prop :=
  buf.length = mem.length ∧
  (∀ (j : Nat), j < vals.length → buf[j]? = vals[j]?) ∧
  (∀ (j : Nat), vals.length ≤ j → buf[j]? = mem[j]?)

theorem overwrite_ok (mem vals : List K) (h : vals.length ≤ mem.length) :
    ∃ buf, overwrite mem vals = .ok buf ∧ Filled buf mem vals := by
  refine ⟨vals ++ mem.drop vals.length, by simp [overwrite, h], ?_, ?_, ?_⟩
  · simp; omega
  · intro j hj; rw [List.getElem?_append_left hj]
  · intro j hj
    rw [List.getElem?_append_right hj, List.getElem?_drop]
    congr 1; omega

theorem overwrite_err (mem vals : List K) (h : mem.length < vals.length) :
    overwrite mem vals = .error .valueError := by
  simp [overwrite, Nat.not_le.2 h]

/-- A memory buffer has the fixed C sizes. -/
def Proposal.Sized (p : Proposal K) : Prop :=
  p.fluxes.length = maxBands ∧ p.amps.length = maxRadii ∧ p.dampsRh.length = maxRadii ∧
  p.dampsN.length = maxRadii

/-- Specification of one proposal entry. -/
def Describes (sp : Splines K) (s : Source K) (mem p : Proposal K) : Prop :=
  p.ra = s.attr .ra ∧ p.dec = s.attr .dec ∧ p.q = s.attr .q ∧ p.pa = s.attr .pa ∧
  p.nsersic = s.attr .sersic ∧ p.rh = s.attr .rhalf ∧
  Filled p.fluxes mem.fluxes s.flux ∧ Filled p.amps mem.amps (sp.amps s) ∧
  Filled p.dampsRh mem.dampsRh (sp.dRh s) ∧ Filled p.dampsN mem.dampsN (sp.dN s)

/-- A source can be described to the kernel: a galaxy with at most 30 bands and 10 radii. -/
def Fits (sp : Splines K) (s : Source K) : Prop :=
  (∃ b, s.cls = .galaxy b ∨ s.cls = .conformal b) ∧ s.flux.length ≤ 30 ∧
  (sp.amps s).length ≤ 10 ∧ (sp.dRh s).length ≤ 10 ∧ (sp.dN s).length ≤ 10

theorem proposal_spec (sp : Splines K) (s : Source K) (mem : Proposal K) (hm : mem.Sized) :
    (Fits sp s → ∃ p, proposal sp s mem = .ok p ∧ Describes sp s mem p) ∧
    (¬ Fits sp s → ∃ e, proposal sp s mem = .error e) := by
  obtain ⟨m1, m2, m3, m4⟩ := hm
  rw [maxBands] at m1
  rw [maxRadii] at m2 m3 m4
  constructor
  · rintro ⟨⟨b, hb⟩, h1, h2, h3, h4⟩
    obtain ⟨fl, e1, f1⟩ := overwrite_ok mem.fluxes s.flux (by omega)
    obtain ⟨a, e2, f2⟩ := overwrite_ok mem.amps (sp.amps s) (by omega)
    obtain ⟨d, e3, f3⟩ := overwrite_ok mem.dampsRh (sp.dRh s) (by omega)
    obtain ⟨n, e4, f4⟩ := overwrite_ok mem.dampsN (sp.dN s) (by omega)
    refine ⟨{ ra := s.attr .ra, dec := s.attr .dec, q := s.attr .q, pa := s.attr .pa,
              nsersic := s.attr .sersic, rh := s.attr .rhalf,
              fluxes := fl, amps := a, dampsRh := d, dampsN := n }, ?_, ?_⟩
    · rcases hb with hb | hb
      all_goals
        simp only [proposal, hb, e1, e2, e3, e4]
    · exact ⟨rfl, rfl, rfl, rfl, rfl, rfl, f1, f2, f3, f4⟩
  · intro hnf
    by_cases hcls : ∃ b, s.cls = .galaxy b ∨ s.cls = .conformal b
    · have hbad : ∀ x : Except Err (Proposal K), proposal sp s mem = x →
          (∀ p, x = .ok p → False) → ∃ e, x = .error e := by
        intro x _ hx
        cases x with
        | ok p => exact (hx p rfl).elim
        | error e => exact ⟨e, rfl⟩
      refine hbad _ rfl ?_
      intro p hp
      apply hnf
      refine ⟨hcls, ?_⟩
      obtain ⟨b, hb⟩ := hcls
      have key : ∀ m v : List K, m.length < v.length → ∀ u, overwrite m v ≠ .ok u := by
        intro m v h u hu; rw [overwrite_err m v h] at hu; cases hu
      have hp' : ∃ fl a d n, overwrite mem.fluxes s.flux = .ok fl ∧
          overwrite mem.amps (sp.amps s) = .ok a ∧ overwrite mem.dampsRh (sp.dRh s) = .ok d ∧
          overwrite mem.dampsN (sp.dN s) = .ok n := by
        unfold proposal at hp
        rcases hb with hb | hb
        all_goals
          rw [hb] at hp
          simp only at hp
          split at hp
          · cases hp
          · rename_i fl hfl
            split at hp
            · rename_i a d n ha hd hn
              exact ⟨fl, a, d, n, hfl, ha, hd, hn⟩
            · cases hp
            · cases hp
            · cases hp
      obtain ⟨fl, a, d, n, g1, g2, g3, g4⟩ := hp'
      refine ⟨?_, ?_, ?_, ?_⟩
      · by_contra hh; exact key _ _ (by omega) _ g1
      · by_contra hh; exact key _ _ (by omega) _ g2
      · by_contra hh; exact key _ _ (by omega) _ g3
      · by_contra hh; exact key _ _ (by omega) _ g4
    · unfold proposal
      cases hc : s.cls with
      | galaxy b => exact absurd ⟨b, Or.inl hc⟩ hcls
      | conformal b => exact absurd ⟨b, Or.inr hc⟩ hcls
      | base => exact ⟨_, rfl⟩
      | star => exact ⟨_, rfl⟩
      | simple => exact ⟨_, rfl⟩

theorem proposals_spec (sp : Splines K) (mem : Source K → Proposal K) (hm : ∀ s, (mem s).Sized) :
    ∀ (l : List (Source K)),
    ((∀ s ∈ l, Fits sp s) → ∃ ps, proposals sp mem l = .ok ps ∧
      List.Forall₂ (fun s p => Describes sp s (mem s) p) l ps) ∧
    ((∃ s ∈ l, ¬ Fits sp s) → ∃ e, proposals sp mem l = .error e) := by
  intro l
  induction l with
  | nil => exact ⟨fun _ => ⟨[], rfl, .nil⟩, by simp⟩
  | cons s t ih =>
    obtain ⟨p1, p2⟩ := proposal_spec sp s (mem s) (hm s)
    constructor
    · intro h
      obtain ⟨p, hp, hd⟩ := p1 (h s (by simp))
      obtain ⟨ps, hps, hds⟩ := ih.1 (fun x hx => h x (by simp [hx]))
      exact ⟨p :: ps, by simp [proposals, hp, hps], .cons hd hds⟩
    · rintro ⟨x, hx, hnf⟩
      unfold proposals
      by_cases hs : Fits sp s
      · obtain ⟨p, hp, _⟩ := p1 hs
        rcases List.mem_cons.1 hx with rfl | hx
        · exact absurd hs hnf
        · obtain ⟨e, he⟩ := ih.2 ⟨x, hx, hnf⟩
          rw [hp, he]; exact ⟨e, rfl⟩
      · obtain ⟨e, he⟩ := p2 hs
        rw [he]; exact ⟨e, rfl⟩

/-- C25, partial: the proposal of a scene has one entry per source that is not fixed (or per
fixed source, when those are asked for), in order; each carries that source's coordinates,
shape, fluxes and amplitudes in the leading slots.  If some such source exceeds the kernel's
sizes, or there is none, an error is raised.
Missing: the remaining slots are left as allocated instead of zero (`C25_refuted_zero`). -/
theorem C25_proposal_partial (sp : Splines K) (mem : Source K → Proposal K)
    (hm : ∀ s, (mem s).Sized) (sc : Scene K) (active : Bool) :
    ((∃ s ∈ sc, s.fixed = !active) → (∀ s ∈ sc, s.fixed = (!active) → Fits sp s) →
      ∃ ps, getProposal sp mem sc active = .ok ps ∧
        List.Forall₂ (fun s p => Describes sp s (mem s) p)
          (sc.filter fun s => s.fixed == !active) ps) ∧
    ((∃ s ∈ sc, s.fixed = (!active) ∧ ¬ Fits sp s) →
      ∃ e, getProposal sp mem sc active = .error e) ∧
    ((∀ s ∈ sc, s.fixed ≠ !active) → getProposal sp mem sc active = .error .valueError) := by
  have hl : (if active then activeSources sc else sc.filter fun s => s.fixed) =
      sc.filter fun s => s.fixed == !active := by
    cases active with
    | true =>
      simp only [if_true, activeSources]
      apply List.filter_congr
      intro x _; cases x.fixed <;> rfl
    | false =>
      simp only [Bool.false_eq_true, if_false]
      apply List.filter_congr
      intro x _; cases x.fixed <;> rfl
  unfold getProposal
  rw [hl]
  obtain ⟨q1, q2⟩ := proposals_spec sp mem hm (sc.filter fun s => s.fixed == !active)
  refine ⟨?_, ?_, ?_⟩
  · rintro ⟨s, hs, hsf⟩ hf
    obtain ⟨ps, hps, hd⟩ := q1 (by
      intro x hx
      rw [List.mem_filter] at hx
      exact hf x hx.1 (by simpa using hx.2))
    rw [hps]
    cases ps with
    | nil =>
      have : s ∈ sc.filter fun s => s.fixed == !active := by
        rw [List.mem_filter]; exact ⟨hs, by simp [hsf]⟩
      rw [List.forall₂_nil_right_iff] at hd
      rw [hd] at this; simp at this
    | cons p ps => exact ⟨_, rfl, hd⟩
  · rintro ⟨s, hs, hsf, hnf⟩
    obtain ⟨e, he⟩ := q2 ⟨s, by rw [List.mem_filter]; exact ⟨hs, by simp [hsf]⟩, hnf⟩
    rw [he]; exact ⟨e, rfl⟩
  · intro h
    have : (sc.filter fun s => s.fixed == !active) = [] := by
      rw [List.filter_eq_nil_iff]
      intro x hx; simpa using h x hx
    rw [this]
    rfl

/-- Splines with three radii. -/
def sp3 : Splines Int := ⟨fun _ => [1, 2, 3], fun _ => [4, 5, 6], fun _ => [7, 8, 9]⟩

/-- A freshly allocated buffer that happens to hold 99s. -/
def dirty : Proposal Int :=
  ⟨99, 99, 99, 99, 99, 99, List.replicate 30 99, List.replicate 10 99, List.replicate 10 99,
    List.replicate 10 99⟩

example : (∀ s ∈ scene3, Fits sp3 s) ∧ dirty.Sized := by
  refine ⟨?_, rfl, rfl, rfl, rfl⟩
  intro s hs
  simp only [scene3, List.mem_cons, List.not_mem_nil, or_false] at hs
  rcases hs with rfl | rfl | rfl <;>
    exact ⟨⟨_, Or.inl rfl⟩, by decide, by decide, by decide, by decide⟩

/-- C25 is false in asking for zeros beyond the source's bands: the slots keep what the
uninitialised buffer held. -/
theorem C25_refuted_zero : ∃ ps, getProposal sp3 (fun _ => dirty) scene3 true = .ok ps ∧
    ps.map (fun p => p.fluxes[2]?) = [some 99, some 99] :=
  ⟨_, rfl, rfl⟩

end Forcepho.Sources
