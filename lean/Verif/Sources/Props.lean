import Verif.Sources.Model
import Mathlib.Data.List.Perm.Basic
import Mathlib.Algebra.BigOperators.Group.List.Basic

/-! # Properties C21–C25: sources and scenes -/

set_option autoImplicit false

namespace Forcepho.Sources

variable {K : Type}

/-! ## Lemmas on attribute assignment -/

theorem setAttrs_not_mem (l : List (Attr × K)) : ∀ (a : Attr → K) (x : Attr),
    x ∉ l.map (·.1) → setAttrs a l x = a x := by
  induction l with
  | nil => intro a x _; rfl
  | cons p t ih =>
    intro a x hx
    obtain ⟨n, v⟩ := p
    simp only [List.map_cons, List.mem_cons, not_or] at hx
    rw [setAttrs, ih _ _ hx.2, Function.update_of_ne hx.1]

theorem setAttrs_map (l : List Attr) : ∀ (a : Attr → K) (v : List K), l.Nodup →
    v.length = l.length → l.map (setAttrs a (l.zip v)) = v := by
  induction l with
  | nil => intro a v _ h; simp at h; simp [h]
  | cons n t ih =>
    intro a v hn hv
    cases v with
    | nil => simp at hv
    | cons x v =>
      simp only [List.length_cons, Nat.add_right_cancel_iff] at hv
      obtain ⟨h1, h2⟩ := List.nodup_cons.1 hn
      simp only [List.zip_cons_cons, setAttrs, List.map_cons]
      rw [ih _ v h2 hv, setAttrs_not_mem]
      · simp
      · rw [List.map_fst_zip (by omega)]; exact h1

theorem setAttrs_self (l : List Attr) : ∀ (a : Attr → K), setAttrs a (l.zip (l.map a)) = a := by
  induction l with
  | nil => intro a; rfl
  | cons n t ih =>
    intro a
    simp only [List.map_cons, List.zip_cons_cons, setAttrs, Function.update_eq_self]
    exact ih a

theorem vecAttrs_nodup (c : Cls) : (vecAttrs c).Nodup := by
  cases c with
  | galaxy b => cases b <;> decide
  | conformal b => cases b <;> decide
  | _ => decide

theorem asserted_eq (c : Cls) : assertedShape c = (vecAttrs c).length := by
  cases c with
  | galaxy b => cases b <;> rfl
  | conformal b => cases b <;> rfl
  | _ => rfl

/-- The vector read back without a filter. -/
theorem getParams_none (s : Source K) :
    s.getParams none = .ok (s.flux ++ (vecAttrs s.cls).map s.attr) := by
  obtain ⟨c, _, _, _, _, _⟩ := s
  cases c <;> rfl

theorem getParams_some (s : Source K) (f : String) (hf : f ≠ "") (i : Nat) (x : K)
    (hi : s.filterIndex f = .ok i) (hx : s.flux[i]? = some x) :
    s.getParams (some f) = .ok (x :: (vecAttrs s.cls).map s.attr) := by
  have : normFilter s.cls (some f) = some f := by
    unfold normFilter
    cases s.cls <;> simp [hf]
  unfold Source.getParams
  simp only [this, hi, hx]

theorem filterIndex_ok (s : Source K) (f : String) (hf : f ∈ s.filternames) :
    ∃ i, s.filterIndex f = .ok i ∧ i < s.filternames.length ∧ s.filternames[i]? = some f := by
  unfold Source.filterIndex
  have h : s.filternames.idxOf? f = some (s.filternames.idxOf f) := by
    rw [List.idxOf?_eq_some_iff]
    exact ⟨List.idxOf_lt_length_of_mem hf, by simp [List.getElem_idxOf], fun j hj => by
      intro he
      have := List.not_of_lt_findIdx (xs := s.filternames) (p := (· == f)) hj
      simp at this
      exact this (by simpa using he)⟩
  rw [h]
  exact ⟨_, rfl, List.idxOf_lt_length_of_mem hf, by
    rw [List.getElem?_eq_getElem (List.idxOf_lt_length_of_mem hf)]; simp⟩

/-! ## C21 -/

/-- C21: for a source of any class, a vector is accepted exactly when it is as long as the vector
the source reports; then the source reports exactly that vector afterwards, and its other
attributes are unchanged; otherwise the source is unchanged. -/
theorem C21_set_get (s : Source K) (hs : s.WF) (v w : List K) (hw : s.getParams none = .ok w) :
    (v.length = w.length →
      (s.setParams v none).2 = none ∧ (s.setParams v none).1.getParams none = .ok v ∧
      (s.setParams v none).1.WF ∧
      (s.setParams v none).1.cls = s.cls ∧ (s.setParams v none).1.filternames = s.filternames ∧
      (s.setParams v none).1.fixed = s.fixed ∧ (s.setParams v none).1.id = s.id ∧
      ∀ a, a ∉ vecAttrs s.cls → (s.setParams v none).1.attr a = s.attr a) ∧
    (v.length ≠ w.length → s.setParams v none = (s, some .assertionError)) := by
  rw [getParams_none] at hw
  obtain rfl := Except.ok.inj hw
  unfold Source.WF at hs
  rw [List.length_append, List.length_map, hs]
  simp only [Source.setParams, asserted_eq, Source.nBands]
  constructor
  · intro h
    have h2 : (v.take s.filternames.length).length = s.flux.length := by
      rw [List.length_take, hs]; omega
    simp only [h, ne_eq, not_true_eq_false, if_false, h2, getParams_none, Source.WF]
    refine ⟨trivial, ?_, ?_, trivial, trivial, trivial, trivial, ?_⟩
    · rw [setAttrs_map _ _ _ (vecAttrs_nodup _) (by rw [List.length_drop]; omega)]
      rw [List.take_append_drop]
    · exact hs
    · intro a ha
      apply setAttrs_not_mem
      rw [List.map_fst_zip (by rw [List.length_drop]; omega)]
      exact ha
  · intro h
    simp only [ne_eq, h, not_false_eq_true, if_true]

/-- C21: setting a source to the vector it reports changes nothing. -/
theorem C21_get_set (s : Source K) (hs : s.WF) (w : List K) (hw : s.getParams none = .ok w) :
    s.setParams w none = (s, none) := by
  rw [getParams_none] at hw
  obtain rfl := Except.ok.inj hw
  unfold Source.WF at hs
  have h1 : s.nBands = s.flux.length := hs.symm
  simp [Source.setParams, asserted_eq, h1, setAttrs_self]

/-- C21, one band at a time: with a known filter (not the empty string, which some classes treat
as no filter) the vector has one flux; it is accepted exactly at that length, reads back, and
leaves the other bands' fluxes alone.  An unknown filter is rejected. -/
theorem C21_filter (s : Source K) (hs : s.WF) (f : String) (v : List K) (hne : f ≠ "") :
    (f ∉ s.filternames → s.setParams v (some f) = (s, some .valueError)) ∧
    (f ∈ s.filternames → v.length ≠ 1 + (vecAttrs s.cls).length →
      s.setParams v (some f) = (s, some .assertionError)) ∧
    (f ∈ s.filternames → v.length = 1 + (vecAttrs s.cls).length →
      (s.setParams v (some f)).2 = none ∧
      (s.setParams v (some f)).1.getParams (some f) = .ok v ∧
      ∀ (j : Nat), s.filternames[j]? ≠ some f →
        (s.setParams v (some f)).1.flux[j]? = s.flux[j]?) := by
  refine ⟨?_, ?_, ?_⟩
  · intro hf
    have : s.filterIndex f = .error .valueError := by
      unfold Source.filterIndex
      rw [List.idxOf?_eq_none_iff.2 hf]
    simp [Source.setParams, this]
  · intro hf hv
    obtain ⟨i, hi, _⟩ := filterIndex_ok s f hf
    simp [Source.setParams, hi, asserted_eq, hv]
  · intro hf hv
    obtain ⟨i, hi, hlt, hfi⟩ := filterIndex_ok s f hf
    cases v with
    | nil => simp at hv; omega
    | cons x t =>
      have ht : t.length = (vecAttrs s.cls).length := by simp at hv; omega
      have hset : s.setParams (x :: t) (some f) =
          ({ s with
            flux := s.flux.set i x
            attr := setAttrs s.attr ((vecAttrs s.cls).zip t) }, none) := by
        simp only [Source.setParams, hi, asserted_eq]
        rw [if_neg (by simpa using hv)]
        rfl
      rw [hset]
      refine ⟨rfl, ?_, ?_⟩
      · have := getParams_some
          ({ s with
            flux := s.flux.set i x
            attr := setAttrs s.attr ((vecAttrs s.cls).zip t) }) f hne i x hi
          (by
            simp only
            rw [List.getElem?_set_self]
            rw [hs]; exact hlt)
        rw [this]
        simp only [setAttrs_map _ s.attr t (vecAttrs_nodup s.cls) ht]
      · intro j hj
        simp only
        rw [List.getElem?_set_ne]
        rintro rfl
        exact hj hfi

/-- The reported number of parameters is the length of the parameter vector, for every class but
the base class. -/
theorem C21_nparams (s : Source K) (hs : s.WF) (w : List K) (hw : s.getParams none = .ok w) :
    (s.cls ≠ .base → s.nParams = w.length) ∧ (s.cls = .base → s.nParams + 2 = w.length) := by
  rw [getParams_none] at hw
  obtain rfl := Except.ok.inj hw
  unfold Source.WF at hs
  rw [List.length_append, List.length_map, hs]
  unfold Source.nParams Source.nBands npos
  obtain ⟨c, fs, fl, at_, id, fx⟩ := s
  cases c with
  | galaxy b => cases b <;> simp [nshape, vecAttrs] <;> omega
  | conformal b => cases b <;> simp [nshape, vecAttrs] <;> omega
  | base => simp [nshape, vecAttrs]; omega
  | star => simp [nshape, vecAttrs]; omega
  | simple => simp [nshape, vecAttrs]; omega

/-- A two-band galaxy for the examples. -/
def gal (b : Bool) (fixed : Bool) (f : List Int) : Source Int where
  cls := .galaxy b
  filternames := ["F1", "F2"]
  flux := f
  attr := fun a => match a with
    | .ra => 10 | .dec => 20 | .q => 1 | .pa => 3 | .sersic => 2 | .rhalf => 5 | .ep => 0 | .ec => 0
  id := 0
  fixed := fixed

example : (gal true false [7, 8]).WF ∧
    (gal true false [7, 8]).getParams none = .ok [7, 8, 10, 20, 1, 3, 2, 5] ∧
    ((gal true false [7, 8]).setParams [1, 2, 3, 4, 5, 6, 7, 8] none).1.flux = [1, 2] ∧
    ((gal true false [7, 8]).setParams [1, 3, 4, 5, 6, 7, 8] (some "F2")).1.flux = [7, 1] :=
  ⟨rfl, rfl, rfl, rfl⟩

/-! ## C22 -/

/-- Total length of the scene vector: specification. -/
def total (sc : Scene K) : Nat := ((sc.filter fun s => !s.fixed).map (·.nParams)).sum

theorem readAll_ok (l : List (Source K)) :
    readAll l = .ok (l.map fun s => s.flux ++ (vecAttrs s.cls).map s.attr) := by
  induction l with
  | nil => rfl
  | cons s t ih => simp [readAll, getParams_none, ih]

theorem total_cons_fixed (s : Source K) (t : Scene K) (h : s.fixed = true) :
    total (s :: t) = total t := by simp [total, h]

theorem total_cons_active (s : Source K) (t : Scene K) (h : s.fixed = false) :
    total (s :: t) = s.nParams + total t := by simp [total, h]

/-- Result of setting a scene from position `start`. -/
theorem setAllFrom_spec (theta : List K) : ∀ (sc : Scene K) (start : Nat),
    (∀ s ∈ sc, s.WF ∧ s.cls ≠ .base) →
    (start + total sc ≤ theta.length →
      ∃ sc', setAllFrom theta sc start = (sc', none) ∧
        sc'.length = sc.length ∧
        (∀ (i : Nat) (s : Source K), sc[i]? = some s → ∃ s', sc'[i]? = some s' ∧
          (s.fixed = true → s' = s) ∧
          s'.fixed = s.fixed ∧ s'.cls = s.cls ∧ s'.filternames = s.filternames ∧ s'.WF ∧
          s'.id = s.id ∧
          (s.fixed = false → s'.getParams none =
            .ok ((theta.drop (start + total (sc.take i))).take s.nParams))) ∧
        ((activeSources sc').map fun s => s.flux ++ (vecAttrs s.cls).map s.attr).flatten =
          (theta.drop start).take (total sc)) ∧
    (theta.length < start + total sc → start ≤ theta.length →
      (setAllFrom theta sc start).2 = some .assertionError) := by
  intro sc
  induction sc with
  | nil =>
    intro start _
    refine ⟨fun _ => ⟨[], rfl, rfl, by simp, by simp [activeSources, total]⟩, ?_⟩
    intro h h'; simp [total] at h; omega
  | cons s t ih =>
    intro start hwf
    obtain ⟨hs, hb⟩ := hwf s (by simp)
    have hwt : ∀ s ∈ t, s.WF ∧ s.cls ≠ .base := fun x hx => hwf x (by simp [hx])
    cases hfx : s.fixed with
    | true =>
      obtain ⟨ih1, ih2⟩ := ih start hwt
      rw [total_cons_fixed s t hfx]
      constructor
      · intro hle
        obtain ⟨sc', h1, h2, h3, h4⟩ := ih1 hle
        refine ⟨s :: sc', ?_, by simp [h2], ?_, ?_⟩
        · simp [setAllFrom, hfx, h1]
        · intro i x hx
          cases i with
          | zero =>
            simp only [List.getElem?_cons_zero, Option.some.injEq] at hx
            subst hx
            exact ⟨s, rfl, fun _ => rfl, rfl, rfl, rfl, hs, rfl, fun h => by rw [hfx] at h; cases h⟩
          | succ i =>
            simp only [List.getElem?_cons_succ] at hx
            obtain ⟨s', e1, e2⟩ := h3 i x hx
            refine ⟨s', by simpa using e1, ?_⟩
            rw [List.take_succ_cons, total_cons_fixed s _ hfx]
            exact e2
        · have : activeSources (s :: sc') = activeSources sc' := by simp [activeSources, hfx]
          rw [this, h4]
      · intro h h'
        have := ih2 h h'
        simp [setAllFrom, hfx, this]
    | false =>
      obtain ⟨ih1, ih2⟩ := ih (start + s.nParams) hwt
      rw [total_cons_active s t hfx]
      have hget := getParams_none s
      have hlen := (C21_nparams s hs _ hget).1 hb
      have hslice : (theta.take (start + s.nParams)).drop start =
          (theta.drop start).take s.nParams := by
        rw [List.drop_take]; congr 1; omega
      obtain ⟨hok, hbad⟩ := C21_set_get s hs ((theta.drop start).take s.nParams) _ hget
      constructor
      · intro hle
        have hsl : ((theta.drop start).take s.nParams).length =
            (s.flux ++ (vecAttrs s.cls).map s.attr).length := by
          rw [← hlen, List.length_take, List.length_drop]; omega
        obtain ⟨a1, a2, a3, a4, a5, a6, a7, _⟩ := hok hsl
        obtain ⟨sc', h1, h2, h3, h4⟩ := ih1 (by omega)
        set s1 := (s.setParams ((theta.drop start).take s.nParams) none).1 with hs1
        have hsp : s.setParams ((theta.drop start).take s.nParams) none = (s1, none) := by
          rw [← a1]
        refine ⟨s1 :: sc', ?_, by simp [h2], ?_, ?_⟩
        · simp [setAllFrom, hfx, hslice, hsp, h1]
        · intro i x hx
          cases i with
          | zero =>
            simp only [List.getElem?_cons_zero, Option.some.injEq] at hx
            subst hx
            refine ⟨s1, rfl, fun h => (by rw [hfx] at h; cases h), a6, a4, a5, a3, a7, fun _ => ?_⟩
            simpa [total] using a2
          | succ i =>
            simp only [List.getElem?_cons_succ] at hx
            obtain ⟨s', e1, e2⟩ := h3 i x hx
            refine ⟨s', by simpa using e1, ?_⟩
            rw [List.take_succ_cons, total_cons_active s _ hfx, ← Nat.add_assoc]
            exact e2
        · have : activeSources (s1 :: sc') = s1 :: activeSources sc' := by
            simp [activeSources, a6, hfx]
          rw [this, List.map_cons, List.flatten_cons, h4]
          have hv : s1.flux ++ (vecAttrs s1.cls).map s1.attr = (theta.drop start).take s.nParams := by
            rw [getParams_none] at a2
            exact Except.ok.inj a2
          rw [hv, List.take_add, List.drop_drop]
      · intro h h'
        by_cases hfit : start + s.nParams ≤ theta.length
        · have hsl : ((theta.drop start).take s.nParams).length =
            (s.flux ++ (vecAttrs s.cls).map s.attr).length := by
            rw [← hlen, List.length_take, List.length_drop]; omega
          obtain ⟨a1, _⟩ := hok hsl
          have := ih2 (by omega) hfit
          have hsp : s.setParams ((theta.drop start).take s.nParams) none =
              ((s.setParams ((theta.drop start).take s.nParams) none).1, none) := by
            rw [← a1]
          simp only [setAllFrom, hfx, hslice]
          rw [hsp]
          simp [this]
        · have hsl : ((theta.drop start).take s.nParams).length ≠
            (s.flux ++ (vecAttrs s.cls).map s.attr).length := by
            rw [← hlen, List.length_take, List.length_drop]; omega
          simp only [setAllFrom, hfx, hslice]
          rw [hbad hsl]
          simp

/-- C22: distributing a vector at least as long as the scene's parameter count succeeds; each
source that is not fixed then reports exactly its own slice (starting after the parameters of
the non-fixed sources before it), fixed sources are untouched, and collecting the parameters
returns the vector (surplus entries are silently ignored).  A shorter vector is rejected. -/
theorem C22_scene (sc : Scene K) (theta : List K) (hwf : ∀ s ∈ sc, s.WF ∧ s.cls ≠ .base) :
    (total sc ≤ theta.length →
      ∃ sc', setAll sc theta = (sc', none) ∧ sc'.length = sc.length ∧
        (∀ (i : Nat) (s : Source K), sc[i]? = some s → ∃ s', sc'[i]? = some s' ∧
          (s.fixed = true → s' = s) ∧
          s'.fixed = s.fixed ∧ s'.cls = s.cls ∧ s'.filternames = s.filternames ∧ s'.WF ∧
          s'.id = s.id ∧
          (s.fixed = false → s'.getParams none =
            .ok ((theta.drop (total (sc.take i))).take s.nParams))) ∧
        ((∃ s ∈ sc, s.fixed = false) → getAll sc' true = .ok (theta.take (total sc)))) ∧
    (theta.length < total sc → (setAll sc theta).2 = some .assertionError) := by
  obtain ⟨h1, h2⟩ := setAllFrom_spec theta sc 0 hwf
  constructor
  · intro hle
    obtain ⟨sc', e1, e2, e3, e4⟩ := h1 (by omega)
    refine ⟨sc', e1, e2, ?_, ?_⟩
    · intro i s hi
      obtain ⟨s', f⟩ := e3 i s hi
      simp only [Nat.zero_add] at f
      exact ⟨s', f⟩
    · rintro ⟨s, hs, hf⟩
      obtain ⟨i, hi⟩ := List.getElem?_of_mem hs
      obtain ⟨s', f1, _, f3, _⟩ := e3 i s hi
      have hm : s' ∈ activeSources sc' := by
        unfold activeSources
        rw [List.mem_filter]
        exact ⟨List.mem_of_getElem? f1, by simp [f3, hf]⟩
      have : activeSources sc' ≠ [] := List.ne_nil_of_mem hm
      unfold getAll
      simp only [if_true, readAll_ok]
      cases hA : activeSources sc' with
      | nil => exact absurd hA this
      | cons x xs =>
        rw [hA] at e4
        simp only [List.map_cons, concat]
        rw [List.map_cons] at e4
        rw [e4, List.drop_zero]
  · intro h
    exact h2 (by omega) (by omega)

/-- Two active galaxies with different numbers of parameters around a fixed one. -/
def scene3 : Scene Int := [gal true false [1, 2], gal true true [3, 4], gal false false [5, 6]]

example : (∀ s ∈ scene3, s.WF ∧ s.cls ≠ .base) ∧ total scene3 = 14 ∧
    getAll scene3 true = .ok [1, 2, 10, 20, 1, 3, 2, 5, 5, 6, 10, 20, 1, 3] ∧
    (setAll scene3 (List.range 14 |>.map Int.ofNat)).2 = none := by
  refine ⟨?_, rfl, rfl, rfl⟩
  intro s hs
  simp only [scene3, List.mem_cons, List.not_mem_nil, or_false] at hs
  rcases hs with rfl | rfl | rfl <;> exact ⟨rfl, by simp [gal]⟩

/-- The base class cannot be used in a scene: it asks for six shape parameters but counts four.
-/
theorem C22_base_class (s : Source K) (hs : s.WF) (hb : s.cls = .base) (hf : s.fixed = false)
    (theta : List K) : (setAll [s] theta).2 = some .assertionError := by
  have hlen := (C21_nparams s hs _ (getParams_none s)).2 hb
  have := (C21_set_get s hs ((theta.take (0 + s.nParams)).drop 0) _ (getParams_none s)).2 (by
    rw [← hlen, List.length_drop, List.length_take]; omega)
  simp only [setAll, setAllFrom, hf]
  rw [this]
  simp

/-! ## C23 -/

theorem take_active (sc : Scene K) : ∀ (sid : Nat), (∀ (j : Nat) (x : Source K), j < sid →
    sc[j]? = some x → x.fixed = false) →
    ((activeSources sc).take sid).map (·.nParams) = (sc.take sid).map (·.nParams) := by
  induction sc with
  | nil => intro sid _; simp [activeSources]
  | cons s t ih =>
    intro sid h
    cases sid with
    | zero => simp
    | succ k =>
      have h0 : s.fixed = false := h 0 s (by omega) rfl
      have : activeSources (s :: t) = s :: activeSources t := by simp [activeSources, h0]
      rw [this, List.take_succ_cons, List.take_succ_cons, List.map_cons, List.map_cons,
        ih k (fun j x hj hx => h (j + 1) x (by omega) (by simpa using hx))]

theorem getElem?_flatten_block (l : List (List K)) (i k : Nat) (b : List K) (hb : l[i]? = some b)
    (hk : k < b.length) : l.flatten[((l.take i).map List.length).sum + k]? = b[k]? := by
  induction l generalizing i with
  | nil => simp at hb
  | cons a t ih =>
    cases i with
    | zero =>
      simp only [List.getElem?_cons_zero, Option.some.injEq] at hb
      subst hb
      simp only [List.take_zero, List.map_nil, List.sum_nil, Nat.zero_add, List.flatten_cons]
      rw [List.getElem?_append_left hk]
    | succ i =>
      simp only [List.getElem?_cons_succ] at hb
      rw [List.take_succ_cons, List.map_cons, List.sum_cons, List.flatten_cons, Nat.add_assoc,
        List.getElem?_append_right (by omega)]
      rw [show a.length + (((t.take i).map List.length).sum + k) - a.length =
        ((t.take i).map List.length).sum + k by omega]
      exact ih i hb

theorem active_at (sc : Scene K) : ∀ (sid : Nat) (s : Source K), sc[sid]? = some s →
    (∀ (j : Nat) (x : Source K), j ≤ sid → sc[j]? = some x → x.fixed = false) →
    (activeSources sc)[sid]? = some s := by
  induction sc with
  | nil => intro sid s h; simp at h
  | cons a t ih =>
    intro sid s h hno
    have h0 : a.fixed = false := hno 0 a (by omega) rfl
    have e : activeSources (a :: t) = a :: activeSources t := by simp [activeSources, h0]
    rw [e]
    cases sid with
    | zero => simpa using h
    | succ k =>
      simp only [List.getElem?_cons_succ] at h ⊢
      exact ih k s h (fun j x hj hx => hno (j + 1) x (by omega) (by simpa using hx))

/-- C23, partial: when no source up to and including the requested one is fixed, the reported
indices address, in the scene vector, exactly the vector the source reports for that band: its
flux in the band followed by its position and shape parameters.
Missing: the general case, which is refuted below. -/
theorem C23_indices_partial (sc : Scene K) (hwf : ∀ s ∈ sc, s.WF ∧ s.cls ≠ .base) (sid : Nat)
    (s : Source K) (hs : sc[sid]? = some s)
    (hno : ∀ (j : Nat) (x : Source K), j ≤ sid → sc[j]? = some x → x.fixed = false)
    (f : String) (hf : f ∈ s.filternames) (hne : f ≠ "") (theta : List K)
    (hth : getAll sc true = .ok theta) :
    ∃ inds vec, paramIndices sc sid (some f) = .ok inds ∧ s.getParams (some f) = .ok vec ∧
      inds.map (fun i => theta[i]?) = vec.map some ∧
      ∀ i ∈ inds, (((sc.take sid).map (·.nParams)).sum ≤ i ∧
        i < (((sc.take (sid + 1)).map (·.nParams)).sum)) := by
  obtain ⟨hw, hb⟩ := hwf s (List.mem_of_getElem? hs)
  obtain ⟨i, hi, hlt, hfi⟩ := filterIndex_ok s f hf
  have hil : i < s.flux.length := by rw [hw]; exact hlt
  have hx : s.flux[i]? = some s.flux[i] := List.getElem?_eq_getElem hil
  have hvec := getParams_some s f hne i _ hi hx
  have hnp := (C21_nparams s hw _ (getParams_none s)).1 hb
  rw [List.length_append, List.length_map] at hnp
  have hlt0 : sid < sc.length := (List.getElem?_eq_some_iff.1 hs).1
  have hstart := take_active sc sid (fun j x hj hx => hno j x (by omega) hx)
  have hA := active_at sc sid s hs hno
  -- the vector
  have hth' : theta = ((activeSources sc).map fun s => s.flux ++ (vecAttrs s.cls).map s.attr).flatten := by
    unfold getAll at hth
    simp only [if_true, readAll_ok] at hth
    cases hL : (activeSources sc).map fun s => s.flux ++ (vecAttrs s.cls).map s.attr with
    | nil => rw [hL] at hth; cases hth
    | cons a b => rw [hL] at hth; exact (Except.ok.inj hth).symm
  have hblock : ∀ k, k < (s.flux ++ (vecAttrs s.cls).map s.attr).length →
      theta[((sc.take sid).map (·.nParams)).sum + k]? = (s.flux ++ (vecAttrs s.cls).map s.attr)[k]? := by
    intro k hk
    have := getElem?_flatten_block
      ((activeSources sc).map fun s => s.flux ++ (vecAttrs s.cls).map s.attr) sid k _
      (by rw [List.getElem?_map, hA]; rfl) hk
    rw [← hth'] at this
    rw [← this]
    congr 2
    rw [← hstart, ← List.map_take, List.map_map]
    congr 1
    apply List.map_congr_left
    intro x hx
    have hmem : x ∈ sc := List.mem_of_mem_filter (List.mem_of_mem_take hx)
    obtain ⟨hw', hb'⟩ := hwf x hmem
    exact (C21_nparams x hw' _ (getParams_none x)).1 hb'
  have hnb : s.nParams - s.nBands = (vecAttrs s.cls).length := by
    rw [hnp, hw]; unfold Source.nBands; omega
  refine ⟨((((activeSources sc).take sid).map (·.nParams)).sum + i) ::
    (List.range (s.nParams - s.nBands)).map fun k =>
      (((activeSources sc).take sid).map (·.nParams)).sum + s.nBands + k, _, ?_, hvec, ?_, ?_⟩
  · simp only [paramIndices, hs, hi]
  · simp only [List.map_cons, List.map_map]
    congr 1
    · rw [hstart, hblock i (by rw [List.length_append]; omega), List.getElem?_append_left hil, hx]
    · rw [hnb, hstart]
      apply List.ext_getElem
      · simp
      · intro k h1 h2
        simp only [List.length_map, List.length_range] at h1
        simp only [List.getElem_map, List.getElem_range, Function.comp_apply]
        have hbb : s.nBands = s.flux.length := hw.symm
        rw [hbb, Nat.add_assoc, hblock (s.flux.length + k) (by
          rw [List.length_append, List.length_map]; omega),
          List.getElem?_append_right (by omega)]
        simp [h1]
  · intro j hj
    have hsum : ((sc.take (sid + 1)).map (·.nParams)).sum =
        ((sc.take sid).map (·.nParams)).sum + s.nParams := by
      rw [List.take_add_one, hs]; simp
    rw [hsum]
    simp only [List.mem_cons, List.mem_map, List.mem_range] at hj
    rw [hstart] at hj
    have : s.nBands = s.flux.length := hw.symm
    rcases hj with rfl | ⟨k, hk, rfl⟩
    · omega
    · omega

/-- C23: under the same condition, indices of different sources never coincide. -/
theorem C23_disjoint (sc : Scene K) (hwf : ∀ s ∈ sc, s.WF ∧ s.cls ≠ .base) (a b : Nat)
    (hab : a < b) (s t : Source K) (hs : sc[a]? = some s) (ht : sc[b]? = some t)
    (hno : ∀ (j : Nat) (x : Source K), j ≤ b → sc[j]? = some x → x.fixed = false)
    (f g : String) (hf : f ∈ s.filternames) (hg : g ∈ t.filternames) (hfe : f ≠ "") (hge : g ≠ "")
    (ia ib : List Nat) (ha : paramIndices sc a (some f) = .ok ia)
    (hb : paramIndices sc b (some g) = .ok ib) : ∀ i ∈ ia, i ∉ ib := by
  have hth : ∃ theta, getAll sc true = .ok theta := by
    unfold getAll
    simp only [if_true, readAll_ok]
    have := active_at sc b t ht hno
    cases hL : activeSources sc with
    | nil => rw [hL] at this; simp at this
    | cons x xs => exact ⟨_, rfl⟩
  obtain ⟨theta, hth⟩ := hth
  obtain ⟨ia', _, e1, _, _, e2⟩ := C23_indices_partial sc hwf a s hs
    (fun j x hj hx => hno j x (by omega) hx) f hf hfe theta hth
  obtain ⟨ib', _, e3, _, _, e4⟩ := C23_indices_partial sc hwf b t ht hno g hg hge theta hth
  rw [ha] at e1; obtain rfl := Except.ok.inj e1
  rw [hb] at e3; obtain rfl := Except.ok.inj e3
  intro i hi hi'
  have h1 := (e2 i hi).2
  have h2 := (e4 i hi').1
  have hmono : ((sc.take (a + 1)).map (·.nParams)).sum ≤ ((sc.take b).map (·.nParams)).sum := by
    have : sc.take b = sc.take (a + 1) ++ (sc.drop (a + 1)).take (b - (a + 1)) := by
      rw [← List.take_add]; congr 1; omega
    rw [this, List.map_append, List.sum_append]
    omega
  omega

/-- C23 is false of the code when a fixed source comes first: the indices of the only active
source point outside the scene vector. -/
theorem C23_refuted :
    ∃ inds, paramIndices [gal true true [3, 4], gal true false [1, 2]] 1 (some "F1") = .ok inds ∧
      getAll [gal true true [3, 4], gal true false [1, 2]] true
        = .ok [1, 2, 10, 20, 1, 3, 2, 5] ∧
      (∀ i ∈ inds, 8 ≤ i) :=
  ⟨[8, 10, 11, 12, 13, 14, 15], rfl, rfl, by decide⟩

/-- Asking for all bands (the documented default) raises. -/
theorem C23_default_raises (sc : Scene K) (sid : Nat) :
    ∃ e, paramIndices sc sid none = .error e := by
  unfold paramIndices
  simp only
  split
  · exact ⟨_, rfl⟩
  · exact ⟨_, rfl⟩

example : paramIndices [gal true false [3, 4], gal false false [1, 2]] 1 (some "F2")
    = .ok [9, 10, 11, 12, 13] := rfl

end Forcepho.Sources
