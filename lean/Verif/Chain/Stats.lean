import Mathlib.Data.List.Basic
import Mathlib.Data.List.Zip

/-! # C169: the statistics of a sampling run
(forcepho/utils/chain.py `make_statscat`; forcepho/fitting.py `Result.fill`; the last draws as used in forcepho/postprocess.py) -/

set_option autoImplicit false

namespace Forcepho.Chain.Stats

variable {V : Type}

/-- `[s[c] for s in stats]` (utils/chain.py:21); `none` is a `KeyError`. -/
def column (stats : List (String → Option V)) (c : String) : Option (List V) :=
  match stats with
  | [] => some []
  | s :: rest =>
    match s c, column rest c with
    | some v, some vs => some (v :: vs)
    | _, _ => none

/-- `make_statscat` (utils/chain.py:13-22): the columns are those the step declares. Conversions of type are not modelled. -/
def makeStatscat (cols : List String) (stats : List (String → Option V)) : Option (List (String × List V)) :=
  match cols with
  | [] => some []
  | c :: rest =>
    match column stats c, makeStatscat rest stats with
    | some vs, some t => some ((c, vs) :: t)
    | _, _ => none

/-- `n_tune` and `n_sample` (fitting.py:127-128). -/
def counts (tune : List Bool) : Nat × Nat := (tune.count true, tune.length - tune.count true)

/-- `x[-n:]` (postprocess.py:290, 292): for `n = 0` the slice is `x[0:]`. -/
def lastOf (n : Nat) (x : List V) : List V := if n = 0 then x else x.drop (x.length - n)

theorem column_spec (stats : List (String → Option V)) (c : String) (vs : List V) :
    column stats c = some vs ↔ List.Forall₂ (fun s v => s c = some v) stats vs := by
  induction stats generalizing vs with
  | nil =>
    simp only [column]
    constructor
    · intro h; injection h with h; subst h; exact List.Forall₂.nil
    · intro h; cases h; rfl
  | cons s rest ih =>
    simp only [column]
    cases hs : s c with
    | none =>
      simp only
      constructor
      · intro h; cases h
      · intro h
        cases h with
        | cons h1 h2 => rw [hs] at h1; cases h1
    | some v =>
      cases hr : column rest c with
      | none =>
        simp only
        constructor
        · intro h; cases h
        · intro h
          cases h with
          | cons h1 h2 => rw [(ih _).2 h2] at hr; cases hr
      | some ws =>
        simp only
        constructor
        · intro h
          injection h with h
          subst h
          exact List.Forall₂.cons hs ((ih ws).1 hr)
        · intro h
          cases h with
          | cons h1 h2 =>
            rw [hs] at h1
            injection h1 with h1
            rw [(ih _).2 h2] at hr
            injection hr with hr
            rw [h1, hr]

/-- C169, table. The statistics of the draws make a table just if each draw has a value for each declared column. The table then has the
declared columns in order, one value for each draw, and the value of each draw is the one the sampler reported under that name. -/
theorem C169_table (cols : List String) (stats : List (String → Option V)) :
    ((∃ t, makeStatscat cols stats = some t) ↔ ∀ c ∈ cols, ∀ s ∈ stats, ∃ v, s c = some v) ∧
    ∀ t, makeStatscat cols stats = some t → t.map (·.1) = cols ∧
      ∀ e ∈ t, e.2.length = stats.length ∧ ∀ (i : Nat) (s : String → Option V), stats[i]? = some s → e.2[i]? = s e.1 := by
  have hcol : ∀ c, (∃ vs, column stats c = some vs) ↔ ∀ s ∈ stats, ∃ v, s c = some v := by
    intro c
    induction stats with
    | nil => simp [column]
    | cons s rest ih =>
      simp only [column, List.mem_cons, forall_eq_or_imp]
      rw [← ih]
      cases s c <;> cases column rest c <;> simp
  constructor
  · induction cols with
    | nil => simp [makeStatscat]
    | cons c rest ih =>
      simp only [makeStatscat, List.mem_cons, forall_eq_or_imp]
      rw [← ih, ← hcol]
      cases column stats c <;> cases makeStatscat rest stats <;> simp
  · induction cols with
    | nil =>
      intro t h
      simp only [makeStatscat] at h
      injection h with h
      subst h
      simp
    | cons c rest ih =>
      intro t h
      simp only [makeStatscat] at h
      cases hc : column stats c with
      | none => rw [hc] at h; cases h
      | some vs =>
        cases hr : makeStatscat rest stats with
        | none => rw [hc, hr] at h; cases h
        | some u =>
          rw [hc, hr] at h
          injection h with h
          subst h
          obtain ⟨h1, h2⟩ := ih u hr
          refine ⟨by rw [List.map_cons, h1], ?_⟩
          intro e he
          rcases List.mem_cons.1 he with rfl | he
          · have hf := (column_spec stats c vs).1 hc
            refine ⟨hf.length_eq.symm, ?_⟩
            intro i s hi
            obtain ⟨hlt, hs⟩ := List.getElem?_eq_some_iff.1 hi
            have hlt2 : i < vs.length := hf.length_eq ▸ hlt
            have := (List.forall₂_iff_get.1 hf).2 i hlt hlt2
            simp only [List.get_eq_getElem] at this
            rw [hs] at this
            rw [List.getElem?_eq_getElem hlt2]
            exact this.symm
          · exact h2 e he

example : makeStatscat ["tune", "model_logp"] [fun c => if c = "tune" then some 1 else some 7, fun c => if c = "tune" then some 0 else some 8] =
    some [("tune", [1, 0]), ("model_logp", [7, 8])] := by decide +kernel

/-- C169, counts. Every draw is counted once, as warm-up or as a sample. -/
theorem C169_counts (tune : List Bool) :
    (counts tune).1 = (tune.filter fun b => b).length ∧ (counts tune).2 = (tune.filter fun b => !b).length ∧
    (counts tune).1 + (counts tune).2 = tune.length := by
  have h1 : tune.count true = (tune.filter fun b => b).length := by
    rw [List.count_eq_countP, List.countP_eq_length_filter]
    congr 2
    funext b
    cases b <;> rfl
  have h2 : (tune.filter fun b => b).length + (tune.filter fun b => !b).length = tune.length := by
    rw [← List.countP_eq_length_filter, ← List.countP_eq_length_filter]
    exact (List.length_eq_countP_add_countP (p := fun b => b) (l := tune)).symm ▸ by
      congr 1
      apply List.countP_congr
      intro b _
      cases b <;> simp
  simp only [counts]
  omega

/-- The values at the draws that are not warm-up. -/
def sampled (tune : List Bool) (x : List V) : List V := ((tune.zip x).filter fun e => !e.1).map (·.2)

theorem sampled_append (a b : Nat) (x : List V) (h : x.length = a + b) :
    sampled (List.replicate a true ++ List.replicate b false) x = x.drop a := by
  induction a generalizing x with
  | zero =>
    simp only [List.replicate_zero, List.nil_append, List.drop_zero]
    rw [Nat.zero_add] at h
    induction b generalizing x with
    | zero => simp [List.length_eq_zero_iff.1 h, sampled]
    | succ b ih =>
      cases x with
      | nil => simp at h
      | cons v x =>
        have := ih x (by simpa using h)
        simp only [sampled, List.replicate_succ, List.zip_cons_cons] at this ⊢
        rw [List.filter_cons_of_pos (by rfl), List.map_cons, this]
  | succ a ih =>
    cases x with
    | nil => simp at h; omega
    | cons v x =>
      have := ih x (by simp at h; omega)
      simp only [sampled, List.replicate_succ, List.cons_append, List.zip_cons_cons, List.drop_succ_cons] at this ⊢
      rw [List.filter_cons_of_neg (by simp), this]

/-- C169, partial (samples). If there is a draw that is not warm-up, the last `n_sample` entries of every list with one entry for each draw
belong to the draws that are not warm-up, all of them and in order, exactly if all warm-up comes first. Missing: runs without such
draws, C169_empty_refuted. -/
theorem C169_samples_partial (tune : List Bool) (hs : 0 < (tune.filter fun b => !b).length) :
    (∀ (V : Type) (x : List V), x.length = tune.length →
      lastOf (counts tune).2 x = ((tune.zip x).filter fun e => !e.1).map (·.2)) ↔
    ∃ a b, tune = List.replicate a true ++ List.replicate b false := by
  obtain ⟨c1, c2, c3⟩ := C169_counts tune
  constructor
  · intro h
    have h1 := h Bool tune rfl
    have hz : ((tune.zip tune).filter fun e => !e.1).map (·.2) = tune.filter fun b => !b := by
      clear h h1 hs c1 c2 c3
      induction tune with
      | nil => rfl
      | cons t tune ih => cases t <;> simp_all
    rw [hz] at h1
    simp only [lastOf] at h1
    rw [if_neg (by omega)] at h1
    have hlen : tune.length - (counts tune).2 = (counts tune).1 := by omega
    rw [hlen] at h1
    have hfalse : tune.drop (counts tune).1 = List.replicate (counts tune).2 false := by
      rw [List.eq_replicate_iff]
      refine ⟨by rw [List.length_drop]; omega, ?_⟩
      intro b hb
      rw [h1] at hb
      simpa using (List.mem_filter.1 hb).2
    have htrue : tune.take (counts tune).1 = List.replicate (counts tune).1 true := by
      rw [List.eq_replicate_iff]
      refine ⟨by rw [List.length_take]; omega, ?_⟩
      have hcnt : (tune.take (counts tune).1).count true = (counts tune).1 := by
        have := List.count_append (a := true) (l₁ := tune.take (counts tune).1) (l₂ := tune.drop (counts tune).1)
        rw [List.take_append_drop, hfalse, List.count_replicate] at this
        simp only [counts] at this ⊢
        simpa using this.symm
      intro b hb
      have hl : (tune.take (counts tune).1).length = (counts tune).1 := by rw [List.length_take]; omega
      have := List.count_eq_length.1 (hcnt.trans hl.symm) b hb
      exact this.symm
    exact ⟨_, _, by rw [← htrue, ← hfalse, List.take_append_drop]⟩
  · rintro ⟨a, b, rfl⟩ V x hx
    have hx' : x.length = a + b := by simpa using hx
    have ha : (counts (List.replicate a true ++ List.replicate b false)).2 = b := by
      simp [counts, List.count_append, List.count_replicate]
    have hb : 0 < b := by
      rw [c2] at ha
      omega
    rw [ha]
    show _ = sampled _ x
    rw [sampled_append a b x hx', lastOf, if_neg (by omega), hx', Nat.add_sub_cancel]

example : 0 < ([true, true, false].filter fun b => !b).length ∧ lastOf (counts [true, true, false]).2 [5, 6, 7] = [7] := by decide

/-- Assignment of a list to one cell of a column with `n` entries (postprocess.py:290-292): numpy refuses another length, except for one
entry, which is repeated. -/
def store (n : Nat) (x : List V) : Option (List V) :=
  match x with
  | [v] => some (List.replicate n v)
  | _ => if x.length = n then some x else none

/-- C169, samples as stored. The size of the columns is the number of samples of the first patch. If a patch has that number of samples, at
least one, and warm-up first, each of its quantities is stored as its values at the samples. -/
theorem C169_stored (a b : Nat) (hb : 0 < b) (x : List V) (hx : x.length = a + b) :
    store (counts (List.replicate a true ++ List.replicate b false)).2
      (lastOf (counts (List.replicate a true ++ List.replicate b false)).2 x) = some (x.drop a) := by
  have ha : (counts (List.replicate a true ++ List.replicate b false)).2 = b := by
    simp [counts, List.count_append, List.count_replicate]
  rw [ha, lastOf, if_neg (by omega), hx, Nat.add_sub_cancel]
  have hl : (x.drop a).length = b := by rw [List.length_drop]; omega
  cases h : x.drop a with
  | nil => rw [h] at hl; simp at hl; omega
  | cons v r =>
    cases r with
    | nil =>
      rw [h] at hl
      have : b = 1 := by simpa using hl.symm
      subst this
      rfl
    | cons w r =>
      rw [h] at hl
      simp only [store]
      rw [if_pos hl]

example : store 2 (lastOf 2 [5, 6, 7]) = some [6, 7] := by decide

/-- C169, refuted (no samples). If the first patch has no samples, the slice of every patch is the whole chain, which does not fit the empty
columns: no catalog is made as soon as there are two draws. -/
theorem C169_empty_refuted (n : Nat) (x : List V) (hx : 2 ≤ x.length) :
    (counts (List.replicate n true)).2 = 0 ∧ lastOf (counts (List.replicate n true)).2 x = x ∧
    store (counts (List.replicate n true)).2 (lastOf (counts (List.replicate n true)).2 x) = none := by
  have h0 : (counts (List.replicate n true)).2 = 0 := by simp [counts]
  refine ⟨h0, by rw [h0]; rfl, ?_⟩
  rw [h0, lastOf, if_pos rfl]
  match x, hx with
  | v :: w :: r, _ => simp [store]

/-- C169, refuted (other patches). The number of samples is that of the first patch. A patch with fewer samples after its warm-up has the
last draws of its warm-up stored as samples, without an error. -/
theorem C169_warmup_refuted (a b d : Nat) (hd : 0 < d) (hda : d ≤ a) (x : List V) (hx : x.length = a + b) :
    ∃ y, store (b + d) (lastOf (b + d) x) = some y ∧ y = (x.take a).drop (a - d) ++ x.drop a ∧ ((x.take a).drop (a - d)).length = d := by
  have e : lastOf (b + d) x = x.drop (a - d) := by
    rw [lastOf, if_neg (by omega)]
    congr 1
    omega
  have hsplit : x.drop (a - d) = (x.take a).drop (a - d) ++ x.drop a := by
    conv_lhs => rw [← List.take_append_drop a x]
    rw [List.drop_append_of_le_length (by rw [List.length_take]; omega)]
  have hl : (x.drop (a - d)).length = b + d := by rw [List.length_drop]; omega
  refine ⟨x.drop (a - d), ?_, hsplit, by rw [List.length_drop, List.length_take]; omega⟩
  rw [e]
  cases h : x.drop (a - d) with
  | nil => rw [h] at hl; simp at hl; omega
  | cons v r =>
    cases r with
    | nil =>
      rw [h] at hl
      have : b + d = 1 := by simpa using hl.symm
      rw [this]
      rfl
    | cons w r =>
      rw [h] at hl
      simp only [store]
      rw [if_pos hl]

/-- The hypotheses are met: three warm-up draws, two samples, and a first patch with four. -/
example : store (2 + 2) (lastOf (2 + 2) [1, 2, 3, 4, 5]) = some [2, 3, 4, 5] := by decide

end Forcepho.Chain.Stats
