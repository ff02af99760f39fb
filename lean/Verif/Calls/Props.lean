import Verif.Calls.Table
import Mathlib.Data.List.Nodup
import Mathlib.Data.List.Basic
import Mathlib.Data.List.Zip

/-! # C167 -/

set_option autoImplicit false

namespace Forcepho.Calls

variable {V : Type}

/-- The keyword can be bound to a parameter. -/
def Takes (s : Sig) (k : String) : Prop := k ∈ s.params ∨ k ∈ s.kwonly.map (·.1)

instance (s : Sig) (k : String) : Decidable (Takes s k) := inferInstanceAs (Decidable (_ ∨ _))

theorem bindKw_ok (s : Sig) (kw : List (String × V)) : ∀ b r : Bound V, (kw.map (·.1)).Nodup →
    (bindKw s kw b = .ok r ↔
      (∀ k ∈ kw.map (·.1), k ∉ b.named.map (·.1) ∨ ¬ Takes s k) ∧ (∀ k ∈ kw.map (·.1), Takes s k ∨ s.kwargs = true) ∧
      r = ⟨b.named ++ kw.filter (fun e => decide (Takes s e.1)), b.args, b.kwargs ++ kw.filter (fun e => !decide (Takes s e.1))⟩) := by
  induction kw with
  | nil =>
    intro b r _
    simp only [bindKw, List.map_nil, List.not_mem_nil, false_implies, implies_true, true_and, List.filter_nil, List.append_nil]
    constructor
    · intro h; injection h with h; exact h.symm
    · rintro rfl; rfl
  | cons e kw ih =>
    obtain ⟨k, v⟩ := e
    intro b r hn
    rw [List.map_cons, List.nodup_cons] at hn
    obtain ⟨hk, hn⟩ := hn
    have ht : (s.params.contains k || (s.kwonly.map (·.1)).contains k) = decide (Takes s k) := by
      rw [Bool.eq_iff_iff, Bool.or_eq_true, List.contains_iff_mem, List.contains_iff_mem, decide_eq_true_iff]
      exact Iff.rfl
    simp only [bindKw, ht]
    by_cases h : Takes s k
    · rw [if_pos (by simpa using h)]
      by_cases hb : k ∈ b.named.map (·.1)
      · rw [if_pos (by rw [List.contains_iff_mem]; exact hb)]
        constructor
        · intro hh; cases hh
        · rintro ⟨h1, -, -⟩
          rcases h1 k (by simp) with h1 | h1
          · exact absurd hb h1
          · exact absurd h h1
      · rw [if_neg (by rw [List.contains_iff_mem]; exact hb), ih _ r hn]
        simp only [List.map_append, List.map_cons, List.map_nil, List.mem_cons, forall_eq_or_imp]
        rw [List.filter_cons_of_pos (by simpa using h), List.filter_cons_of_neg (by simpa using h), List.append_assoc,
          List.singleton_append]
        constructor
        · rintro ⟨h1, h2, h3⟩
          refine ⟨⟨Or.inl hb, ?_⟩, ⟨Or.inl h, h2⟩, h3⟩
          intro a ha
          rcases h1 a ha with h1 | h1
          · exact Or.inl fun hh => h1 (List.mem_append_left _ hh)
          · exact Or.inr h1
        · rintro ⟨⟨-, h1⟩, ⟨-, h2⟩, h3⟩
          refine ⟨?_, h2, h3⟩
          intro a ha
          rcases h1 a ha with h1 | h1
          · left
            intro hh
            rcases List.mem_append.1 hh with hh | hh
            · exact h1 hh
            · rw [List.mem_singleton] at hh
              exact hk (hh ▸ ha)
          · exact Or.inr h1
    · rw [if_neg (by simpa using h)]
      cases hs : s.kwargs with
      | false =>
        simp only [Bool.false_eq_true, if_false]
        constructor
        · intro hh; cases hh
        · rintro ⟨-, h2, -⟩
          rcases h2 k (by simp) with h2 | h2
          · exact absurd h2 h
          · exact absurd h2 (by simp)
      | true =>
        simp only [if_true]
        rw [ih _ r hn]
        simp only [List.map_cons, List.mem_cons, forall_eq_or_imp]
        rw [List.filter_cons_of_neg (by simpa using h), List.filter_cons_of_pos (by simpa using h), List.append_assoc,
          List.singleton_append]
        constructor
        · rintro ⟨h1, h2, h3⟩
          exact ⟨⟨Or.inr h, h1⟩, ⟨Or.inr trivial, fun a ha => Or.inr trivial⟩, h3⟩
        · rintro ⟨⟨-, h1⟩, -, h3⟩
          exact ⟨h1, fun a ha => Or.inr hs, h3⟩

theorem zip_names (ps : List String) (pos : List V) : (ps.zip pos).map (·.1) = ps.take pos.length := by
  induction ps generalizing pos with
  | nil => simp
  | cons p ps ih =>
    cases pos with
    | nil => simp
    | cons v pos => simp [ih]

/-- C167, binding. A call succeeds just if there are not more values by position than parameters unless the rest is gathered, no keyword
names a parameter that already has a value by position, every keyword is the name of a parameter unless the rest is gathered, and every
parameter without default gets a value. Then values by position are bound in order, values by keyword under their names, and the rest is
gathered in order. -/
theorem C167_bind (s : Sig) (hp : s.params.Nodup) (hd : ∀ p ∈ s.params, p ∉ s.kwonly.map (·.1)) (pos : List V)
    (kw : List (String × V)) (hk : (kw.map (·.1)).Nodup) (b : Bound V) :
    call s pos kw = .ok b ↔
      (pos.length ≤ s.params.length ∨ s.varargs = true) ∧
      (∀ k ∈ kw.map (·.1), k ∉ s.params.take pos.length) ∧
      (∀ k ∈ kw.map (·.1), k ∈ s.params ∨ k ∈ s.kwonly.map (·.1) ∨ s.kwargs = true) ∧
      (∀ (i : Nat) (p : String), s.params[i]? = some p → i + s.defaults < s.params.length → i < pos.length ∨ p ∈ kw.map (·.1)) ∧
      (∀ p, (p, false) ∈ s.kwonly → p ∈ kw.map (·.1)) ∧
      b.named = s.params.zip pos ++ kw.filter (fun e => decide (e.1 ∈ s.params ∨ e.1 ∈ s.kwonly.map (·.1))) ∧
      b.args = pos.drop s.params.length ∧
      b.kwargs = kw.filter (fun e => decide (¬ (e.1 ∈ s.params ∨ e.1 ∈ s.kwonly.map (·.1)))) := by
  have hzn := zip_names s.params pos
  have hnames : ∀ p, Takes s p → (p ∈ (s.params.zip pos ++ kw.filter fun e => decide (Takes s e.1)).map (·.1) ↔
      p ∈ s.params.take pos.length ∨ p ∈ kw.map (·.1)) := by
    intro p ht
    rw [List.map_append, List.mem_append, hzn]
    refine or_congr Iff.rfl ?_
    simp only [List.mem_map, List.mem_filter, decide_eq_true_eq]
    constructor
    · rintro ⟨e, ⟨h1, -⟩, h2⟩; exact ⟨e, h1, h2⟩
    · rintro ⟨e, h1, h2⟩; exact ⟨e, ⟨h1, h2 ▸ ht⟩, h2⟩
  have hreq : ∀ r : Bound V, r.named = s.params.zip pos ++ kw.filter (fun e => decide (Takes s e.1)) →
      (((required s).find? fun p => !(r.named.map (·.1)).contains p) = none ↔
      (∀ (i : Nat) (p : String), s.params[i]? = some p → i + s.defaults < s.params.length → i < pos.length ∨ p ∈ kw.map (·.1)) ∧
      (∀ p, (p, false) ∈ s.kwonly → p ∈ kw.map (·.1))) := by
    intro r hr
    rw [List.find?_eq_none]
    simp only [Bool.not_eq_true', Bool.not_eq_false, List.contains_iff_mem, hr, required]
    constructor
    · intro h
      constructor
      · intro i p hi hlt
        have hm : p ∈ s.params := List.mem_of_getElem? hi
        have := h p (List.mem_append_left _ (by
          rw [List.mem_take_iff_getElem]
          obtain ⟨h1, h2⟩ := List.getElem?_eq_some_iff.1 hi
          exact ⟨i, by omega, h2⟩))
        rcases (hnames p (Or.inl hm)).1 this with h1 | h1
        · left
          obtain ⟨j, hj, hj2⟩ := List.mem_take_iff_getElem.1 h1
          obtain ⟨h1, h2⟩ := List.getElem?_eq_some_iff.1 hi
          have : j = i := (List.Nodup.getElem_inj_iff hp).1 (hj2.trans h2.symm)
          omega
        · exact Or.inr h1
      · intro p hm
        have hm' : p ∈ s.kwonly.map (·.1) := List.mem_map_of_mem (f := (·.1)) hm
        have := h p (List.mem_append_right _ (List.mem_map.2 ⟨(p, false), List.mem_filter.2 ⟨hm, rfl⟩, rfl⟩))
        rcases (hnames p (Or.inr hm')).1 this with h1 | h1
        · exact absurd hm' (hd p (List.mem_of_mem_take h1))
        · exact h1
    · rintro ⟨h1, h2⟩ p hm
      rcases List.mem_append.1 hm with hm | hm
      · obtain ⟨i, hi, hi2⟩ := List.mem_take_iff_getElem.1 hm
        have hlt : i < s.params.length := by omega
        rw [hnames p (Or.inl (List.mem_of_mem_take hm))]
        rcases h1 i p (List.getElem?_eq_some_iff.2 ⟨hlt, hi2⟩) (by omega) with h | h
        · left
          rw [List.mem_take_iff_getElem]
          exact ⟨i, by omega, hi2⟩
        · exact Or.inr h
      · obtain ⟨⟨q, d⟩, hq, rfl⟩ := List.mem_map.1 hm
        obtain ⟨hq1, hq2⟩ := List.mem_filter.1 hq
        have : d = false := by simpa using hq2
        subst this
        exact (hnames q (Or.inr (List.mem_map_of_mem (f := (·.1)) hq1))).2 (Or.inr (h2 q hq1))
  have hkw : ∀ r, bindKw s kw ⟨s.params.zip pos, pos.drop s.params.length, []⟩ = .ok r ↔ _ := fun r => bindKw_ok s kw _ r hk
  have hflip : (fun e : String × V => !decide (Takes s e.1)) =
      fun e => decide (¬ (e.1 ∈ s.params ∨ e.1 ∈ s.kwonly.map (·.1))) := by
    funext e
    by_cases h : Takes s e.1
    · rw [decide_eq_true h]; exact (decide_eq_false (not_not_intro h)).symm
    · rw [decide_eq_false h]; exact (decide_eq_true h).symm
  have hclash : (∀ k ∈ kw.map (·.1), k ∉ (s.params.zip pos).map (·.1) ∨ ¬ Takes s k) ↔
      ∀ k ∈ kw.map (·.1), k ∉ s.params.take pos.length := by
    rw [hzn]
    refine forall_congr' fun k => imp_congr_right fun _ => ?_
    constructor
    · rintro (h | h)
      · exact h
      · exact fun hh => h (Or.inl (List.mem_of_mem_take hh))
    · exact Or.inl
  unfold call
  by_cases hm : pos.length ≤ s.params.length ∨ s.varargs = true
  · rw [if_neg (by
      rcases hm with h | h
      · simp [Nat.not_lt.2 h]
      · simp [h])]
    cases hb : bindKw s kw ⟨s.params.zip pos, pos.drop s.params.length, []⟩ with
    | error e =>
      simp only
      constructor
      · intro h; cases h
      · rintro ⟨-, h1, h2, -⟩
        have := (hkw _).2 ⟨hclash.2 h1, fun k hk => or_assoc.2 (h2 k hk), rfl⟩
        rw [hb] at this
        cases this
    | ok r =>
      simp only
      obtain ⟨g1, g2, rfl⟩ := (hkw r).1 hb
      constructor
      · intro h
        split at h
        · cases h
        · rename_i hf
          injection h with h
          obtain ⟨f1, f2⟩ := (hreq _ rfl).1 hf
          subst h
          exact ⟨hm, hclash.1 g1, fun k hk => or_assoc.1 (g2 k hk), f1, f2, rfl, rfl, by rw [← hflip]; rfl⟩
      · rintro ⟨-, -, -, f1, f2, e1, e2, e3⟩
        have hf := (hreq ⟨s.params.zip pos ++ kw.filter (fun e => decide (Takes s e.1)), pos.drop s.params.length,
          [] ++ kw.filter (fun e => !decide (Takes s e.1))⟩ rfl).2 ⟨f1, f2⟩
        rw [hf]
        simp only
        obtain ⟨n, a, k⟩ := b
        simp only at e1 e2 e3
        rw [e1, e2, e3, ← hflip]
        rfl
  · rw [if_pos (by
      simp only [not_or, Bool.not_eq_true] at hm
      simp only [hm.2, Bool.not_false, Bool.and_true, decide_eq_true_eq]
      omega)]
    constructor
    · intro h; cases h
    · rintro ⟨h, -⟩; exact absurd h hm

/-- A call with a default left out. -/
example : call ⟨["fn", "pars", "image", "band"], 2, false, [], true⟩ [1, 2] [("band", 3), ("psfim", 4)] =
    .ok ⟨[("fn", 1), ("pars", 2), ("band", 3)], [], [("psfim", 4)]⟩ := by decide +kernel

/-! ## The calls that are written -/

/-- The written part of the call clashes with nothing. -/
def fits (s : Sig) (c : CallText) : Bool :=
  decide s.params.Nodup && s.params.all (fun p => !(s.kwonly.map (·.1)).contains p) && decide c.keywords.Nodup &&
  (decide (c.positional ≤ s.params.length) || s.varargs) &&
  c.keywords.all (fun k => !(s.params.take c.positional).contains k) &&
  c.keywords.all (fun k => s.params.contains k || (s.kwonly.map (·.1)).contains k || s.kwargs)

/-- It leaves no parameter without a value. -/
def fills (s : Sig) (c : CallText) : Bool :=
  (s.params.zipIdx.all fun p => decide (s.params.length ≤ p.2 + s.defaults) || decide (p.2 < c.positional) || c.keywords.contains p.1) &&
  s.kwonly.all fun p => p.2 || c.keywords.contains p.1

/-- The three calls that fail. -/
def wrong : List (String × Nat) :=
  [("forcepho/mixtures/psf_mix_em.py", 130), ("forcepho/mixtures/psf_mix_hmc.py", 191),
   ("tests/galsim_tests/test_sersic/test_sersic_mixture.py", 251)]

theorem table_fits : (called.all fun f => f.calls.all fun c =>
    wrong.contains (c.file, c.line) || (fits f.sig c && (c.star || c.dstar || fills f.sig c))) = true := by decide +kernel

/-- C167, partial (calls). Every call by name of a function, method or constructor of the package, the demonstrations and the tests, but
for three, binds: whatever the values, none is refused, and each reaches the parameter of its place or its name. If the call also
hands on `*args` or `**kwargs`, the part that is written can only leave parameters to them. Missing: the three calls refuted below, and what is
handed on. -/
theorem C167_calls_partial (f : Callee) (hf : f ∈ called) (c : CallText) (hc : c ∈ f.calls)
    (hw : (c.file, c.line) ∉ [("forcepho/mixtures/psf_mix_em.py", 130), ("forcepho/mixtures/psf_mix_hmc.py", 191),
      ("tests/galsim_tests/test_sersic/test_sersic_mixture.py", 251)])
    (pos : List V) (kw : List (String × V)) (hpos : pos.length = c.positional) (hkw : kw.map (·.1) = c.keywords) :
    (c.star = false → c.dstar = false → ∃ b : Bound V, call f.sig pos kw = .ok b ∧
      (∀ (i : Nat) (v : V), pos[i]? = some v → (∃ p, f.sig.params[i]? = some p ∧ (p, v) ∈ b.named) ∨ v ∈ b.args) ∧
      (∀ e ∈ kw, e ∈ b.named ∨ e ∈ b.kwargs)) ∧
    (∀ e, call f.sig pos kw = .error e → ∃ p, e = .missing p) := by
  have h0 := table_fits
  rw [List.all_eq_true] at h0
  have h1 := h0 f hf
  rw [List.all_eq_true] at h1
  have h2 := h1 c hc
  rw [Bool.or_eq_true, List.contains_iff_mem] at h2
  rcases h2 with h2 | h2
  · exact absurd h2 hw
  rw [Bool.and_eq_true, Bool.or_eq_true, Bool.or_eq_true] at h2
  obtain ⟨hfit, hfill⟩ := h2
  simp only [fits, Bool.and_eq_true, decide_eq_true_eq, List.all_eq_true, Bool.or_eq_true, Bool.not_eq_true',
    List.contains_iff_mem] at hfit
  obtain ⟨⟨⟨⟨⟨a1, a2⟩, a3⟩, a4⟩, a5⟩, a6⟩ := hfit
  have a2' : ∀ p ∈ f.sig.params, p ∉ f.sig.kwonly.map (·.1) := fun p hp hh => by
    have := a2 p hp
    rw [List.contains_iff_mem.2 hh] at this
    cases this
  have a5' : ∀ k ∈ kw.map (·.1), k ∉ f.sig.params.take pos.length := fun k hk hh => by
    rw [hkw] at hk
    rw [hpos] at hh
    have := a5 k hk
    rw [List.contains_iff_mem.2 hh] at this
    cases this
  have hn : (kw.map (·.1)).Nodup := hkw ▸ a3
  constructor
  · intro hs hd
    have hf' : fills f.sig c = true := by
      rcases hfill with (h | h) | h
      · rw [hs] at h; cases h
      · rw [hd] at h; cases h
      · exact h
    simp only [fills, Bool.and_eq_true, List.all_eq_true, Bool.or_eq_true, decide_eq_true_eq, List.contains_iff_mem] at hf'
    obtain ⟨b1, b2⟩ := hf'
    refine ⟨⟨f.sig.params.zip pos ++ kw.filter (fun e => decide (e.1 ∈ f.sig.params ∨ e.1 ∈ f.sig.kwonly.map (·.1))),
      pos.drop f.sig.params.length, kw.filter (fun e => decide (¬ (e.1 ∈ f.sig.params ∨ e.1 ∈ f.sig.kwonly.map (·.1))))⟩, ?_, ?_, ?_⟩
    · rw [C167_bind f.sig a1 a2' pos kw hn]
      refine ⟨by rw [hpos]; exact a4, a5', ?_, ?_, ?_, rfl, rfl, rfl⟩
      · intro k hk
        rw [hkw] at hk
        exact or_assoc.1 (a6 k hk)
      · intro i p hi hlt
        have := b1 (p, i) (by
          rw [List.mem_iff_getElem?]
          exact ⟨i, by rw [List.getElem?_zipIdx, hi]; simp⟩)
        rw [hpos, hkw]
        rcases this with (h | h) | h
        · omega
        · exact Or.inl h
        · exact Or.inr h
      · intro p hp
        rcases b2 (p, false) hp with h | h
        · cases h
        · rw [hkw]; exact h
    · intro i v hi
      by_cases hlt : i < f.sig.params.length
      · left
        refine ⟨f.sig.params[i], List.getElem?_eq_getElem hlt, List.mem_append_left _ ?_⟩
        rw [List.mem_iff_getElem?]
        exact ⟨i, by rw [List.getElem?_zip_eq_some]; exact ⟨List.getElem?_eq_getElem hlt, hi⟩⟩
      · right
        simp only
        rw [List.mem_iff_getElem?]
        exact ⟨i - f.sig.params.length, by rw [List.getElem?_drop, ← hi]; congr 1; omega⟩
    · intro e he
      by_cases h : e.1 ∈ f.sig.params ∨ e.1 ∈ f.sig.kwonly.map (·.1)
      · left
        exact List.mem_append_right _ (List.mem_filter.2 ⟨he, by simpa using h⟩)
      · right
        exact List.mem_filter.2 ⟨he, by simpa using h⟩
  · intro e he
    unfold call at he
    rw [if_neg (by 
      rw [hpos]
      rcases a4 with h | h
      · simp [Nat.not_lt.2 h]
      · simp [h])] at he
    have hb := (bindKw_ok f.sig kw ⟨f.sig.params.zip pos, pos.drop f.sig.params.length, []⟩ _ hn).2
      ⟨by rw [zip_names]; exact fun k hk => Or.inl (a5' k hk), fun k hk => a6 k (hkw ▸ hk), rfl⟩
    rw [hb] at he
    simp only at he
    split at he
    · injection he with he
      exact ⟨_, he.symm⟩
    · cases he

/-- The table is not empty, and one of its entries. -/
example : called.length = 391 ∧ (called.flatMap (·.calls)).length = 848 ∧
    ∃ f ∈ called, f.name = "make_statscat" ∧ ∃ c ∈ f.calls, c.file = "forcepho/fitting.py" ∧ c.line = 126 ∧ c.positional = 2 := by
  refine ⟨by decide +kernel, by decide +kernel, ?_⟩
  have : (called.any fun f => f.name == "make_statscat" && f.calls.any fun c => c.file == "forcepho/fitting.py" && c.line == 126 &&
    c.positional == 2) = true := by decide +kernel
  simp only [List.any_eq_true, Bool.and_eq_true, beq_iff_eq] at this
  obtain ⟨f, h1, h2, c, h3, ⟨h4, h5⟩, h6⟩ := this
  exact ⟨f, h1, h2, c, h3, h4, h5, h6⟩

/-- The signature and the call are in the table. -/
def Written (name file : String) (line : Nat) (s : Sig) (n : Nat) (ks : List String) : Prop :=
  ∃ f ∈ called, f.name = name ∧ f.sig = s ∧ ∃ c ∈ f.calls, c = ⟨file, line, n, false, ks, false⟩

theorem written_of (name file : String) (line : Nat) (s : Sig) (n : Nat) (ks : List String)
    (h : (called.any fun f => f.name == name && decide (f.sig = s) &&
      f.calls.any fun c => decide (c = ⟨file, line, n, false, ks, false⟩)) = true) : Written name file line s n ks := by
  simp only [List.any_eq_true, Bool.and_eq_true, beq_iff_eq, decide_eq_true_eq] at h
  obtain ⟨f, h1, ⟨h2, h3⟩, c, h4, h5⟩ := h
  exact ⟨f, h1, h2, h3, c, h4, h5⟩

/-- C167, refuted (calls). Fitting a mixture with `method_opt="scipy_ls"` ends, after the fit, with an argument that is missing; the
self-test of the mixture sampler and the summary of the tests over Sersic profiles hand over keywords that are not known, whatever the
values. -/
theorem C167_calls_refuted (x : V) (pos2 : List V) (kw2 kw3 : List (String × V)) (h2 : pos2.length = 2)
    (hk2 : kw2.map (·.1) = ["x", "y", "sx", "sy", "a", "weight", "rho"]) (hk3 : kw3.map (·.1) = ["bands"]) :
    (Written "fit_mvn_mix.create_ans" "forcepho/mixtures/psf_mix_em.py" 130 ⟨["params", "original_dict"], 0, false, [], false⟩ 1 [] ∧
      call ⟨["params", "original_dict"], 0, false, [], false⟩ [x] [] = .error (.missing "original_dict")) ∧
    (Written "psf_prediction" "forcepho/mixtures/psf_mix_hmc.py" 191
        ⟨["xpix", "ypix", "x", "y", "a", "weight", "sx", "q", "rho", "bg"], 8, false, [], false⟩ 2
        ["x", "y", "sx", "sy", "a", "weight", "rho"] ∧
      call ⟨["xpix", "ypix", "x", "y", "a", "weight", "sx", "q", "rho", "bg"], 8, false, [], false⟩ pos2 kw2 =
        .error (.unexpected "sy")) ∧
    (Written "compare_apflux" "tests/galsim_tests/test_sersic/test_sersic_mixture.py" 251
        ⟨["scat", "tcat", "band", "colorby"], 2, false, [], false⟩ 2 ["bands"] ∧
      call ⟨["scat", "tcat", "band", "colorby"], 2, false, [], false⟩ pos2 kw3 = .error (.unexpected "bands")) := by
  obtain ⟨p, q, rfl⟩ : ∃ p q, pos2 = [p, q] := by
    match pos2, h2 with
    | [p, q], _ => exact ⟨p, q, rfl⟩
  obtain ⟨v, rfl⟩ : ∃ v, kw3 = [("bands", v)] := by
    match kw3, hk3 with
    | [(k, v)], h =>
      simp only [List.map_cons, List.map_nil, List.cons.injEq, and_true] at h
      exact ⟨v, by rw [h]⟩
  obtain ⟨a, b, c, d, r, rfl⟩ : ∃ a b c d r, kw2 = ("x", a) :: ("y", b) :: ("sx", c) :: ("sy", d) :: r := by
    match kw2, hk2 with
    | (k1, a) :: (k2, b) :: (k3, c) :: (k4, d) :: r, h =>
      simp only [List.map_cons, List.cons.injEq] at h
      obtain ⟨e1, e2, e3, e4, -⟩ := h
      exact ⟨a, b, c, d, r, by rw [e1, e2, e3, e4]⟩
  refine ⟨⟨written_of _ _ _ _ _ _ (by decide +kernel), ?_⟩, ⟨written_of _ _ _ _ _ _ (by decide +kernel), ?_⟩,
    ⟨written_of _ _ _ _ _ _ (by decide +kernel), ?_⟩⟩
  · simp [call, bindKw, required]
  · simp [call, bindKw]
  · simp [call, bindKw]

end Forcepho.Calls
