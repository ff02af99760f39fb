import Verif.Fitting.Other
import Verif.Sources.Props
import Mathlib.Analysis.Complex.ExponentialBounds

/-! # Parameter names and the pymc3 fitter (forcepho/sources.py, forcepho/fitting.py, forcepho/model.py)

pymc3 and theano are external.  A sampler is any function that is given the box, the target density and its
gradient, and returns the points it drew (those of several chains one after the other); what it stores is read
back by name. -/

set_option autoImplicit false

namespace Forcepho.Fitting.Pymc

open Forcepho.Sources

variable {K : Type}

/-! ## Names -/

/-- `"{}_{}".format(n, self.id)` (sources.py:294, 965). -/
def label (n : String) (id : Nat) : String := n ++ "_" ++ toString id

/-- The names of the parameters that are not fluxes: `SHAPE_COLS` (sources.py:293), an explicit list for a
`ConformalShearGalaxy` (sources.py:964). -/
def nameCols : Cls → List String
  | .conformal free => ["ra", "dec"] ++ ["ep", "ec", "n", "r"].take (nshape (.conformal free))
  | c => (shapeCols c).map Attr.name

/-- `Source.parameter_names` (sources.py:291-295, 962-966). -/
def parameterNames (s : Source K) : List String :=
  (s.filternames ++ nameCols s.cls).map fun n => label n s.id

/-- `Scene.parameter_names` (sources.py:105-109): of all sources, fixed ones included. -/
def sceneNames (sc : Scene K) : Except Err (List String) := concat (sc.map parameterNames)

/-! ## The fitter -/

/-- A bound: the default is a number (fitting.py:502), otherwise an array. -/
inductive Bound (K : Type) where
  | scalar (x : K)
  | array (l : List K)

/-- `len(bound)`: a `float` has none. -/
def Bound.len : Bound K → Except Err Nat
  | .scalar _ => .error .typeError
  | .array l => .ok l.length

/-- The entries of a bound. -/
def Bound.entries : Bound K → List K
  | .scalar _ => []
  | .array l => l

/-- Random variables are registered by name; pymc3 refuses a name it knows (`ValueError`). -/
def register (known : List String) : List String → Except Err (List String)
  | [] => .ok known
  | n :: t => if n ∈ known then .error .valueError else register (known ++ [n]) t

/-- The external sampler: box, target, gradient of the target, tuning steps, steps.  Each draw is a vector. -/
abbrev Sampler (K : Type) := List (K × K) → (List K → K) → (List K → List K) → Nat → Nat → List (List K)

/-- The stored draws, by name. -/
def trace (vars : List String) (draws : List (List K)) : List (String × List K) :=
  vars.mapIdx fun k n => (n, draws.filterMap fun d => d[k]?)

/-- `trace.get_values(n)`. -/
def getValues (tr : List (String × List K)) (n : String) : List K :=
  match tr.find? fun e => e.1 = n with
  | some e => e.2
  | none => []

/-- `np.array(cols).T`. -/
def transpose (cols : List (List K)) : List (List K) :=
  match cols with
  | [] => []
  | c :: _ => (List.range c.length).map fun t => cols.filterMap fun d => d[t]?

/-- What the caller gets (fitting.py:527-534), without the trace object and the timings. -/
structure Result (K : Type) where
  ndim : Nat
  start : List K
  chain : List (List K)
  lower : List K
  upper : List K

/-- `run_pymc3` (fitting.py:502-536).  The target is `model.lnprob`, the gradient `model.lnprob_grad`
(model.py:515-551). -/
def runPymc3 (S : Sampler K) (sc : Scene K) (lnprob : List K → K) (lnprobGrad : List K → List K)
    (q : List K) (lower upper : Bound K) (nwarm niter : Nat) : Except Err (Result K) :=
  match sceneNames sc with
  | .error e => .error e
  | .ok pnames =>
    match upper.len, lower.len with
    | .error e, _ => .error e
    | .ok _, .error e => .error e
    | .ok nu, .ok nl =>
      if nu = nl ∧ nl = pnames.length then
        match register [] pnames with
        | .error e => .error e
        | .ok vars =>
          let draws := S (lower.entries.zip upper.entries) lnprob lnprobGrad nwarm niter
          .ok
            { ndim := q.length
              start := q
              chain := transpose (pnames.map (getValues (trace vars draws)))
              lower := lower.entries
              upper := upper.entries }
      else .error .assertionError

/-! ## Specification -/

/-- The named parameters of a source, in the order of the documentation: fluxes, position, shape. -/
def described (s : Source K) : List (String × K) :=
  s.filternames.zip s.flux ++
    match s.cls with
    | .base => [("ra", s.attr .ra), ("dec", s.attr .dec), ("q", s.attr .q), ("pa", s.attr .pa),
        ("rhalf", s.attr .rhalf), ("sersic", s.attr .sersic)]
    | .star => [("ra", s.attr .ra), ("dec", s.attr .dec)]
    | .simple => [("ra", s.attr .ra), ("dec", s.attr .dec), ("q", s.attr .q), ("pa", s.attr .pa)]
    | .galaxy true => [("ra", s.attr .ra), ("dec", s.attr .dec), ("q", s.attr .q), ("pa", s.attr .pa),
        ("sersic", s.attr .sersic), ("rhalf", s.attr .rhalf)]
    | .galaxy false => [("ra", s.attr .ra), ("dec", s.attr .dec), ("q", s.attr .q), ("pa", s.attr .pa)]
    | .conformal true => [("ra", s.attr .ra), ("dec", s.attr .dec), ("ep", s.attr .ep), ("ec", s.attr .ec),
        ("n", s.attr .sersic), ("r", s.attr .rhalf)]
    | .conformal false => [("ra", s.attr .ra), ("dec", s.attr .dec), ("ep", s.attr .ep), ("ec", s.attr .ec)]

/-- Band names that can be told from each other and from the names of other parameters. -/
def GoodBands (s : Source K) : Prop :=
  s.filternames.Nodup ∧
    ∀ n ∈ ["ra", "dec", "q", "pa", "sersic", "rhalf", "ep", "ec", "n", "r"], n ∉ s.filternames

/-- A scene as the constructor leaves it: sources are numbered by position, fluxes match bands. -/
def Numbered (sc : Scene K) : Prop :=
  ∀ (i : Nat) (s : Source K), sc[i]? = some s → s.id = i ∧ s.WF ∧ GoodBands s

/-! ## Proofs -/

theorem label_inj (n n' : String) (i i' : Nat) (h : label n i = label n' i') : n = n' ∧ i = i' := by
  have h1 : n.toList ++ '_' :: Nat.toDigits 10 i = n'.toList ++ '_' :: Nat.toDigits 10 i' := by
    have := congrArg String.toList h
    simpa [label, Nat.toString_eq_ofList_toDigits] using this
  have key : ∀ (a b x y : List Char), '_' ∉ x → '_' ∉ y → a ++ '_' :: x = b ++ '_' :: y → a = b ∧ x = y := by
    intro a
    induction a with
    | nil =>
      intro b x y hx hy e
      cases b with
      | nil => simpa using e
      | cons c b =>
        simp only [List.nil_append, List.cons_append, List.cons.injEq] at e
        exact absurd (by rw [e.2]; simp) hx
    | cons c a ih =>
      intro b x y hx hy e
      cases b with
      | nil =>
        simp only [List.nil_append, List.cons_append, List.cons.injEq] at e
        exact absurd (by rw [← e.2]; simp) hy
      | cons d b =>
        simp only [List.cons_append, List.cons.injEq] at e
        obtain ⟨e1, e2⟩ := ih b x y hx hy e.2
        exact ⟨by rw [e.1, e1], e2⟩
  obtain ⟨e1, e2⟩ := key _ _ _ _ (by simp) (by simp) h1
  refine ⟨String.toList_inj.mp e1, ?_⟩
  have := congrArg (fun l => Nat.ofDigitChars 10 l 0) e2
  simpa using this

theorem nameCols_sub (c : Cls) : (nameCols c).Nodup ∧
    ∀ n ∈ nameCols c, n ∈ ["ra", "dec", "q", "pa", "sersic", "rhalf", "ep", "ec", "n", "r"] := by
  cases c with
  | base => decide
  | star => decide
  | simple => decide
  | galaxy f => cases f <;> decide
  | conformal f => cases f <;> decide

theorem source_nodup (s : Source K) (h : GoodBands s) : (parameterNames s).Nodup := by
  obtain ⟨h1, h2⟩ := nameCols_sub s.cls
  refine List.Nodup.map (fun a b e => (label_inj _ _ _ _ e).1) ?_
  refine List.nodup_append.mpr ⟨h.1, h1, ?_⟩
  rintro a ha b hb rfl
  exact h.2 a (h2 a hb) ha

theorem mem_names (s : Source K) (x : String) (h : x ∈ parameterNames s) : ∃ n, x = label n s.id := by
  obtain ⟨n, -, rfl⟩ := List.mem_map.mp h
  exact ⟨n, rfl⟩

theorem flat_nodup (sc : Scene K) (hid : ∀ (i j : Nat) (s t : Source K), sc[i]? = some s → sc[j]? = some t →
    s.id = t.id → i = j) (hg : ∀ s ∈ sc, GoodBands s) : (sc.map parameterNames).flatten.Nodup := by
  induction sc with
  | nil => simp
  | cons s t ih =>
    rw [List.map_cons, List.flatten_cons, List.nodup_append]
    refine ⟨source_nodup s (hg s (by simp)), ih ?_ fun x hx => hg x (by simp [hx]), ?_⟩
    · intro i j a b ha hb e
      have := hid (i + 1) (j + 1) a b (by simpa using ha) (by simpa using hb) e
      omega
    · rintro a ha b hb rfl
      obtain ⟨l, hl, hal⟩ := List.mem_flatten.mp hb
      obtain ⟨u, hu, rfl⟩ := List.mem_map.mp hl
      obtain ⟨n, e⟩ := mem_names s a ha
      obtain ⟨n', e'⟩ := mem_names u a hal
      have hids := (label_inj _ _ _ _ (e.symm.trans e')).2
      obtain ⟨j, hj⟩ := List.getElem?_of_mem hu
      have := hid 0 (j + 1) s u rfl (by simpa using hj) hids
      omega

theorem numbered_flat (sc : Scene K) (h : Numbered sc) : (sc.map parameterNames).flatten.Nodup := by
  refine flat_nodup sc ?_ ?_
  · intro i j s t hi hj e
    rw [← (h i s hi).1, ← (h j t hj).1, e]
  · intro s hs
    obtain ⟨i, hi⟩ := List.getElem?_of_mem hs
    exact (h i s hi).2.2

theorem described_names (s : Source K) (h : s.WF) :
    (described s).map (fun p => label p.1 s.id) = parameterNames s := by
  have hz : (s.filternames.zip s.flux).map Prod.fst = s.filternames :=
    List.map_fst_zip (by rw [h])
  have : (described s).map Prod.fst = s.filternames ++ nameCols s.cls := by
    rw [described, List.map_append, hz]
    cases s.cls with
    | base => rfl
    | star => rfl
    | simple => rfl
    | galaxy f => cases f <;> rfl
    | conformal f => cases f <;> rfl
  rw [parameterNames, ← this, List.map_map]
  rfl

theorem described_values (s : Source K) (h : s.WF) :
    (described s).map Prod.snd = s.flux ++ (vecAttrs s.cls).map s.attr := by
  have hz : (s.filternames.zip s.flux).map Prod.snd = s.flux :=
    List.map_snd_zip (by rw [h])
  rw [described, List.map_append, hz]
  cases s.cls with
  | base => rfl
  | star => rfl
  | simple => rfl
  | galaxy f => cases f <;> rfl
  | conformal f => cases f <;> rfl

theorem concat_ok (l : List (List K)) (h : l ≠ []) : concat l = .ok l.flatten := by
  cases l with
  | nil => exact absurd rfl h
  | cons a t => rfl

/-- C139: the names of the parameters of a scene without fixed sources line up with its parameter vector, one
name for each entry, and name the source by its position; they are all different. -/
theorem C139_names (sc : Scene K) (hne : sc ≠ []) (h : Numbered sc) (hf : ∀ s ∈ sc, s.fixed = false) :
    ∃ names v, sceneNames sc = .ok names ∧ getAll sc true = .ok v ∧ names.length = v.length ∧ names.Nodup ∧
      ∀ (i : Nat) (s : Source K), sc[i]? = some s → ∀ p ∈ described s,
        ∃ k : Nat, names[k]? = some (p.1 ++ "_" ++ toString i) ∧ v[k]? = some p.2 := by
  have hwf : ∀ s ∈ sc, s.WF := fun s hs => by
    obtain ⟨i, hi⟩ := List.getElem?_of_mem hs
    exact (h i s hi).2.1
  have hact : activeSources sc = sc := by
    unfold activeSources
    exact List.filter_eq_self.mpr fun s hs => by simp [hf s hs]
  have h1 : (sc.map fun s => (described s).map fun p => label p.1 s.id).flatten = (sc.map parameterNames).flatten := by
    congr 1
    exact List.map_congr_left fun s hs => described_names s (hwf s hs)
  have h2 : (sc.map fun s => (described s).map Prod.snd).flatten
      = (sc.map fun s => s.flux ++ (vecAttrs s.cls).map s.attr).flatten := by
    congr 1
    exact List.map_congr_left fun s hs => described_values s (hwf s hs)
  refine ⟨(sc.map parameterNames).flatten, (sc.map fun s => s.flux ++ (vecAttrs s.cls).map s.attr).flatten,
    concat_ok _ (by simpa using hne), ?_, ?_, numbered_flat sc h, ?_⟩
  · unfold getAll
    simp only [if_true, readAll_ok, hact]
    exact concat_ok _ (by simpa using hne)
  · rw [← h1, ← h2, List.length_flatten, List.length_flatten, List.map_map, List.map_map]
    congr 1
    exact List.map_congr_left fun s _ => by simp
  · intro i s hi p hp
    obtain ⟨j, hj⟩ := List.getElem?_of_mem hp
    have hid := (h i s hi).1
    have key : ∀ (sc : Scene K) (i : Nat), sc[i]? = some s → ∃ k : Nat,
        (sc.map fun s => (described s).map fun p => label p.1 s.id).flatten[k]? = some (label p.1 s.id) ∧
        (sc.map fun s => (described s).map Prod.snd).flatten[k]? = some p.2 := by
      intro sc
      induction sc with
      | nil => intro i hi; simp at hi
      | cons a t ih =>
        intro i hi
        cases i with
        | zero =>
          obtain rfl : a = s := by simpa using hi
          have hlt : j < (described a).length := (List.getElem?_eq_some_iff.mp hj).1
          refine ⟨j, ?_, ?_⟩
          · rw [List.map_cons, List.flatten_cons, List.getElem?_append_left (by simpa using hlt), List.getElem?_map, hj]
            rfl
          · rw [List.map_cons, List.flatten_cons, List.getElem?_append_left (by simpa using hlt), List.getElem?_map, hj]
            rfl
        | succ i =>
          obtain ⟨k, k1, k2⟩ := ih i (by simpa using hi)
          refine ⟨(described a).length + k, ?_, ?_⟩
          · rw [List.map_cons, List.flatten_cons, List.getElem?_append_right (by simp)]
            simpa using k1
          · rw [List.map_cons, List.flatten_cons, List.getElem?_append_right (by simp)]
            simpa using k2
    obtain ⟨k, k1, k2⟩ := key sc i hi
    rw [h1, hid] at k1
    rw [h2] at k2
    exact ⟨k, k1, k2⟩

theorem register_ok (l : List String) : ∀ known : List String, (known ++ l).Nodup →
    register known l = .ok (known ++ l) := by
  induction l with
  | nil => intro known _; simp [register]
  | cons n t ih =>
    intro known h
    have hn : n ∉ known := by
      intro hm
      rw [List.nodup_append] at h
      exact h.2.2 n hm n (by simp) rfl
    rw [register, if_neg hn, ih (known ++ [n]) (by simpa using h)]
    simp

theorem register_dup (l : List String) : ∀ known : List String, known.Nodup → ¬ (known ++ l).Nodup →
    register known l = .error .valueError := by
  induction l with
  | nil => intro known h1 h2; exact absurd (by simpa using h1) h2
  | cons n t ih =>
    intro known h1 h2
    rw [register]
    by_cases hn : n ∈ known
    · rw [if_pos hn]
    · rw [if_neg hn]
      refine ih (known ++ [n]) ?_ (by simpa using h2)
      rw [List.nodup_append]
      exact ⟨h1, by simp, by
        rintro a ha b hb rfl
        exact hn ((List.mem_singleton.mp hb) ▸ ha)⟩

theorem getValues_trace (vars : List String) (draws : List (List K)) (hn : vars.Nodup) (k : Nat) (n : String)
    (hk : vars[k]? = some n) : getValues (trace vars draws) n = draws.filterMap fun d => d[k]? := by
  have hmem : (n, draws.filterMap fun d => d[k]?) ∈ trace vars draws := by
    unfold trace
    refine List.mem_of_getElem? (i := k) ?_
    rw [List.getElem?_mapIdx, hk]
    rfl
  unfold getValues
  cases hf : (trace vars draws).find? fun e => decide (e.1 = n) with
  | none =>
    have := List.find?_eq_none.mp hf _ hmem
    simp at this
  | some e =>
    have he := List.find?_some hf
    simp only [decide_eq_true_eq] at he
    have hm := List.mem_of_find?_eq_some hf
    unfold trace at hm
    obtain ⟨k', hlt, hk'⟩ := List.mem_mapIdx.mp hm
    subst hk'
    simp only at he
    have h1 := List.getElem?_eq_some_iff.mp hk
    obtain ⟨hlt', h1⟩ := h1
    have : k' = k := (List.Nodup.getElem_inj_iff hn).mp (he.trans h1.symm)
    subst this
    rfl

theorem filterMap_all {α β : Type} (l : List α) (f : α → Option β) (g : α → β) (h : ∀ a ∈ l, f a = some (g a)) :
    l.filterMap f = l.map g := by
  induction l with
  | nil => rfl
  | cons a t ih =>
    rw [List.filterMap_cons, h a (by simp), List.map_cons, ih fun x hx => h x (by simp [hx])]

theorem transpose_columns (draws : List (List K)) (n : Nat) (hn : 0 < n) (hd : ∀ d ∈ draws, d.length = n) :
    transpose ((List.range n).map fun k => draws.filterMap fun d => d[k]?) = draws := by
  have hlen : ∀ k < n, (draws.filterMap fun d => d[k]?).length = draws.length := by
    intro k hk
    rw [List.length_filterMap_eq_countP, List.countP_eq_length]
    intro d hdm
    have := hd d hdm
    rw [List.getElem?_eq_getElem (by omega)]
    rfl
  have hat : ∀ k < n, ∀ t : Nat, (draws.filterMap fun d => d[k]?)[t]? = draws[t]?.bind fun d => d[k]? := by
    intro k hk t
    have hinh : ∀ d ∈ draws, d ≠ [] := fun d hdm e => by
      have := hd d hdm
      rw [e] at this
      simp at this
      omega
    by_cases hemp : draws = []
    · subst hemp
      simp
    · obtain ⟨d0, hd0⟩ := List.exists_mem_of_ne_nil _ hemp
      have x : K := d0.head (hinh d0 hd0)
      rw [filterMap_all draws (fun d => d[k]?) (fun d => (d[k]?).getD x) fun d hdm => by
        have := hd d hdm
        rw [List.getElem?_eq_getElem (by omega)]
        rfl, List.getElem?_map]
      cases hdt : draws[t]? with
      | none => rfl
      | some d =>
        have := hd d (List.mem_of_getElem? hdt)
        simp only [Option.map_some, Option.bind_some]
        rw [List.getElem?_eq_getElem (by omega)]
        rfl
  obtain ⟨m, rfl⟩ : ∃ m, n = m + 1 := ⟨n - 1, by omega⟩
  have hcons : (List.range (m + 1)).map (fun k => draws.filterMap fun d => d[k]?)
      = (draws.filterMap fun d => d[0]?) :: ((List.range m).map fun k => draws.filterMap fun d => d[k + 1]?) := by
    rw [List.range_succ_eq_map, List.map_cons, List.map_map]
    rfl
  have htr : transpose ((List.range (m + 1)).map fun k => draws.filterMap fun d => d[k]?)
      = (List.range draws.length).map fun t =>
          ((List.range (m + 1)).map fun k => draws.filterMap fun d => d[k]?).filterMap fun c => c[t]? := by
    rw [hcons]
    simp only [transpose]
    rw [hlen 0 hn]
  rw [htr]
  refine List.ext_getElem? fun t => ?_
  rw [List.getElem?_map]
  by_cases ht : t < draws.length
  · rw [List.getElem?_range ht]
    simp only [Option.map_some, List.filterMap_map]
    rw [List.getElem?_eq_getElem ht]
    congr 1
    have hdt := hd draws[t] (List.getElem_mem ht)
    have x : K := (draws[t]).head (by intro e; rw [e] at hdt; simp at hdt)
    rw [filterMap_all (List.range (m + 1)) _ (fun k => ((draws[t])[k]?).getD x) ?_]
    · refine List.ext_getElem? fun k => ?_
      rw [List.getElem?_map]
      by_cases hk : k < m + 1
      · rw [List.getElem?_range hk, Option.map_some, List.getElem?_eq_getElem (by omega)]
        rfl
      · rw [List.getElem?_eq_none (by simp; omega), List.getElem?_eq_none (by omega)]
        rfl
    · intro k hk
      have hk := List.mem_range.mp hk
      simp only [Function.comp]
      rw [hat k hk t, List.getElem?_eq_getElem ht, Option.bind_some, List.getElem?_eq_getElem (by omega)]
      rfl
  · rw [List.getElem?_eq_none (by simpa using ht), List.getElem?_eq_none (by omega)]
    rfl

/-- C139: a run with one pair of bounds for each name hands the box, the log-probability and its gradient to
the sampler and returns the sampler's points, each as one row whose columns follow the names; any other number
of bounds fails. -/
theorem C139_run (S : Sampler K) (sc : Scene K) (hne : sc ≠ []) (h : Numbered sc) (lnprob : List K → K)
    (lnprobGrad : List K → List K) (q lower upper : List K) (nwarm niter : Nat) (names : List String)
    (hnames : sceneNames sc = .ok names)
    (hS : ∀ box f g a b, ∀ d ∈ S box f g a b, d.length = box.length) :
    (lower.length = names.length → upper.length = names.length →
      ∃ r, runPymc3 S sc lnprob lnprobGrad q (.array lower) (.array upper) nwarm niter = .ok r ∧
        r.chain = S (lower.zip upper) lnprob lnprobGrad nwarm niter ∧
        (∀ row ∈ r.chain, row.length = names.length) ∧
        r.ndim = q.length ∧ r.start = q ∧ r.lower = lower ∧ r.upper = upper) ∧
    (¬ (lower.length = names.length ∧ upper.length = names.length) →
      runPymc3 S sc lnprob lnprobGrad q (.array lower) (.array upper) nwarm niter = .error .assertionError) := by
  have hflat : names = (sc.map parameterNames).flatten := by
    rw [sceneNames, concat_ok _ (by simpa using hne)] at hnames
    exact (Except.ok.inj hnames).symm
  have hnd : names.Nodup := hflat ▸ numbered_flat sc h
  constructor
  · intro hl hu
    have hpos : 0 < names.length := by
      obtain ⟨s, t, rfl⟩ := List.exists_cons_of_ne_nil hne
      rw [hflat, List.map_cons, List.flatten_cons, List.length_append, parameterNames, List.length_map, List.length_append]
      have : 0 < (nameCols s.cls).length := by
        cases s.cls with
        | base => decide
        | star => decide
        | simple => decide
        | galaxy f => cases f <;> decide
        | conformal f => cases f <;> decide
      omega
    have hreg := register_ok names [] (by simpa using hnd)
    rw [List.nil_append] at hreg
    set draws := S (lower.zip upper) lnprob lnprobGrad nwarm niter with hdraws
    have hdl : ∀ d ∈ draws, d.length = names.length := by
      intro d hd
      rw [hS _ _ _ _ _ d hd, List.length_zip, hl, hu, Nat.min_self]
    have hchain : transpose (names.map (getValues (trace names draws))) = draws := by
      rw [← transpose_columns draws names.length hpos hdl]
      congr 1
      refine List.ext_getElem? fun k => ?_
      rw [List.getElem?_map, List.getElem?_map]
      by_cases hk : k < names.length
      · rw [List.getElem?_range hk, List.getElem?_eq_getElem hk]
        simp only [Option.map_some]
        congr 1
        rw [transpose_columns draws names.length hpos hdl]
        exact getValues_trace names draws hnd k _ (List.getElem?_eq_getElem hk)
      · rw [List.getElem?_eq_none (by omega), List.getElem?_eq_none (by simp; omega)]
        rfl
    refine ⟨{ ndim := q.length
              start := q
              chain := transpose (names.map (getValues (trace names draws)))
              lower := lower
              upper := upper }, ?_, hchain, ?_, rfl, rfl, rfl, rfl⟩
    · simp only [runPymc3, hnames, Bound.len, Bound.entries, hl, hu, and_self, if_true, hreg]
      rfl
    · rw [hchain]
      exact hdl
  · intro hn
    simp only [runPymc3, hnames, Bound.len]
    rw [if_neg]
    rintro ⟨a, b⟩
    exact hn ⟨b, a.trans b⟩

theorem names_congr (sc sc' : Scene K) (hl : sc'.length = sc.length)
    (h : ∀ (i : Nat) (s : Source K), sc[i]? = some s → ∃ s' : Source K, sc'[i]? = some s' ∧ s'.cls = s.cls ∧
      s'.filternames = s.filternames ∧ s'.id = s.id) : sceneNames sc' = sceneNames sc := by
  have : sc'.map parameterNames = sc.map parameterNames := by
    refine List.ext_getElem? fun i => ?_
    rw [List.getElem?_map, List.getElem?_map]
    cases hi : sc[i]? with
    | none => rw [List.getElem?_eq_none (by rw [hl]; exact List.getElem?_eq_none_iff.mp hi)]
    | some s =>
      obtain ⟨s', e1, e2, e3, e4⟩ := h i s hi
      rw [e1]
      simp only [Option.map_some, parameterNames, e2, e3, e4]
  rw [sceneNames, sceneNames, this]

/-- C139: whatever vector with one entry for each name is drawn, setting the scene to it gives every named
parameter of every source the entry under its name.  (No source of the scene is fixed or of the abstract base
class.) -/
theorem C139_scene (sc : Scene K) (hne : sc ≠ []) (h : Numbered sc)
    (hf : ∀ s ∈ sc, s.fixed = false ∧ s.cls ≠ .base) (names : List String) (hnames : sceneNames sc = .ok names)
    (row : List K) (hr : row.length = names.length) :
    ∃ sc', setAll sc row = (sc', none) ∧ sc'.length = sc.length ∧ getAll sc' true = .ok row ∧
      ∀ (i : Nat) (s : Source K), sc'[i]? = some s → ∀ p ∈ described s,
        ∃ k : Nat, names[k]? = some (p.1 ++ "_" ++ toString i) ∧ row[k]? = some p.2 := by
  have hwf : ∀ s ∈ sc, s.WF ∧ s.cls ≠ .base := fun s hs => by
    obtain ⟨i, hi⟩ := List.getElem?_of_mem hs
    exact ⟨(h i s hi).2.1, (hf s hs).2⟩
  obtain ⟨names', v, a1, a2, a3, -, -⟩ := C139_names sc hne h fun s hs => (hf s hs).1
  rw [hnames] at a1
  obtain rfl := Except.ok.inj a1
  have hact : ∀ sc : Scene K, (∀ s ∈ sc, s.fixed = false) → activeSources sc = sc := fun sc hf => by
    unfold activeSources
    exact List.filter_eq_self.mpr fun s hs => by simp [hf s hs]
  have htot : total sc = v.length := by
    unfold getAll at a2
    simp only [if_true, readAll_ok, hact sc fun s hs => (hf s hs).1] at a2
    rw [concat_ok _ (by simpa using hne)] at a2
    rw [← Except.ok.inj a2, List.length_flatten, List.map_map, total]
    change ((activeSources sc).map _).sum = _
    rw [hact sc fun s hs => (hf s hs).1]
    congr 1
    refine List.map_congr_left fun s hs => ?_
    exact ((C21_nparams s (hwf s hs).1 _ (getParams_none s)).1 (hwf s hs).2)
  obtain ⟨c1, -⟩ := C22_scene sc row hwf
  obtain ⟨sc', b1, b2, b3, b4⟩ := c1 (by omega)
  obtain ⟨s0, t0, hs0⟩ := List.exists_cons_of_ne_nil hne
  have hget := b4 ⟨s0, by rw [hs0]; simp, (hf s0 (by rw [hs0]; simp)).1⟩
  rw [htot, ← a3, ← hr, List.take_length] at hget
  have hback : ∀ (i : Nat) (s' : Source K), sc'[i]? = some s' → ∃ s : Source K, sc[i]? = some s ∧
      s'.fixed = false ∧ s'.cls = s.cls ∧ s'.filternames = s.filternames ∧ s'.WF ∧ s'.id = s.id := by
    intro i s' hi
    have hlt : i < sc.length := by
      rw [← b2]
      exact (List.getElem?_eq_some_iff.mp hi).1
    obtain ⟨s'', e1, -, e2, e3, e4, e5, e6, -⟩ := b3 i sc[i] (List.getElem?_eq_getElem hlt)
    rw [hi] at e1
    obtain rfl := Option.some.inj e1
    exact ⟨_, List.getElem?_eq_getElem hlt, by rw [e2]; exact (hf _ (List.getElem_mem hlt)).1, e3, e4, e5, e6⟩
  have hnum : Numbered sc' := by
    intro i s' hi
    obtain ⟨s, g1, -, g3, g4, g5, g6⟩ := hback i s' hi
    obtain ⟨n1, -, n3⟩ := h i s g1
    exact ⟨g6.trans n1, g5, by rw [GoodBands, g4]; exact n3⟩
  have hnm : sceneNames sc' = sceneNames sc := by
    refine names_congr sc sc' b2 fun i s hi => ?_
    obtain ⟨s', e1, -, -, e3, e4, -, e6, -⟩ := b3 i s hi
    exact ⟨s', e1, e3, e4, e6⟩
  have hne' : sc' ≠ [] := by
    intro e
    rw [e] at b2
    exact hne (List.length_eq_zero_iff.mp b2.symm)
  obtain ⟨names', v', d1, d2, -, -, d5⟩ := C139_names sc' hne' hnum fun s' hs' => by
    obtain ⟨i, hi⟩ := List.getElem?_of_mem hs'
    obtain ⟨s, g1, g2, -⟩ := hback i s' hi
    exact g2
  rw [hnm, hnames] at d1
  obtain rfl := Except.ok.inj d1
  rw [hget] at d2
  obtain rfl := Except.ok.inj d2
  exact ⟨sc', b1, b2, hget, d5⟩

/-- C139, the way the code fails: with the default bounds every run raises. -/
theorem C139_default_refuted (S : Sampler K) (sc : Scene K) (hne : sc ≠ []) (lnprob : List K → K)
    (lnprobGrad : List K → List K) (q : List K) (lo hi : K) (nwarm niter : Nat) :
    runPymc3 S sc lnprob lnprobGrad q (.scalar lo) (.scalar hi) nwarm niter = .error .typeError := by
  simp only [runPymc3, sceneNames, concat_ok _ (show sc.map parameterNames ≠ [] by simpa using hne), Bound.len]

/-- C139, the way the code fails: the sampler never sees the starting position.  It is only copied into the
result, as is its length, which need not be the number of parameters that were sampled. -/
theorem C139_start_refuted (S : Sampler K) (sc : Scene K) (lnprob : List K → K)
    (lnprobGrad : List K → List K) (q q' : List K) (lower upper : Bound K) (nwarm niter : Nat) (r : Result K)
    (hr : runPymc3 S sc lnprob lnprobGrad q lower upper nwarm niter = .ok r) :
    runPymc3 S sc lnprob lnprobGrad q' lower upper nwarm niter = .ok { r with ndim := q'.length, start := q' } := by
  unfold runPymc3 at hr ⊢
  split at hr
  · cases hr
  · rename_i pnames hp
    split at hr
    · cases hr
    · cases hr
    · rename_i nu nl hu hl
      simp only
      split at hr
      · rename_i hc
        rw [if_pos hc]
        split at hr
        · cases hr
        · rename_i vars hv
          obtain rfl := Except.ok.inj hr
          rfl
      · cases hr

/-- A galaxy of one band. -/
def gal1 (fixed : Bool) (flux : Int) (id : Nat) : Source Int :=
  { cls := .galaxy true
    filternames := ["F1"]
    flux := [flux]
    attr := fun _ => 0
    id := id
    fixed := fixed }

/-- A fixed source before an active one. -/
def mixed : Scene Int := [gal1 true 1 0, gal1 false 2 1]

/-- C139, the way the code fails: a fixed source gets names but has no entry in the parameter vector.  One bound for
each parameter is refused; one bound for each name is accepted, and then the number drawn under the name of the flux of the
fixed source is the flux of the other. -/
theorem C139_fixed_refuted (S : Sampler Int) (f : List Int → Int) (g : List Int → List Int) (a b : Nat)
    (lower upper q : List Int) (hl : lower.length = 7) :
    (∃ v, getAll mixed true = .ok v ∧ v.length = 7) ∧
    runPymc3 S mixed f g q (.array lower) (.array upper) a b = .error .assertionError ∧
    ∃ names, sceneNames mixed = .ok names ∧ names.length = 14 ∧ names[0]? = some "F1_0" ∧
      names[7]? = some "F1_1" ∧
      ∀ x y : Int, (setAll mixed ([x, 0, 0, 0, 0, 0, 0] ++ [y, 0, 0, 0, 0, 0, 0])).1.map (·.flux) = [[1], [x]] ∧
        (setAll mixed ([x, 0, 0, 0, 0, 0, 0] ++ [y, 0, 0, 0, 0, 0, 0])).2 = none := by
  refine ⟨⟨[2, 0, 0, 0, 0, 0, 0], rfl, rfl⟩, ?_, ?_⟩
  · have h : ∃ names, sceneNames mixed = .ok names ∧ names.length = 14 := ⟨_, rfl, rfl⟩
    obtain ⟨names, h1, h2⟩ := h
    simp only [runPymc3, h1, Bound.len]
    rw [if_neg]
    rintro ⟨-, e⟩
    omega
  · exact ⟨_, rfl, rfl, by decide +kernel, by decide +kernel, fun x y => ⟨rfl, rfl⟩⟩

/-- C139: two sources with one number make pymc3 refuse the names. -/
theorem C139_duplicate (S : Sampler K) (sc : Scene K) (f : List K → K) (g : List K → List K)
    (q lower upper : List K) (a b : Nat) (names : List String) (hn : sceneNames sc = .ok names)
    (hd : ¬ names.Nodup) (hl : lower.length = names.length) (hu : upper.length = names.length) :
    runPymc3 S sc f g q (.array lower) (.array upper) a b = .error .valueError := by
  have := register_dup names [] (by simp) (by simpa using hd)
  simp only [runPymc3, hn, Bound.len, hl, hu, and_self, if_true, this]

/-! ## The gradient operation -/

section

variable {n : Nat}

/-- `LogLikeWithGrad.grad` (model.py:549-551): the gradient of whatever is computed from the log-probability, where
`g0` is the derivative with respect to the log-probability. -/
def opGrad (lnprobGrad : (Fin n → ℝ) → Fin n → ℝ) (g0 : ℝ) (z : Fin n → ℝ) : Fin n → ℝ :=
  fun i => g0 * lnprobGrad z i

/-- C139: the operation handed to the sampler obeys the chain rule: for any function `L` of the log-probability, with
derivative `g0` there, it returns the derivative of `L` with respect to every sampling parameter, provided
likelihood and prior have the derivatives they report. -/
theorem C139_gradient (g : Transform.Ingredients n) (t : Transform.Bounded n) (hb : ∀ i, t.lower i ≠ t.upper i)
    (hchi : ∀ q i, HasDerivAt (fun x => (g.chi2 (Function.update q i x)).sum) (g.dchi2 q i) (q i))
    (hpr : ∀ q i, HasDerivAt (fun x => g.lnprior (Function.update q i x)) (g.lnpriorGrad q i) (q i))
    (sampling : Bool) (z : Fin n → ℝ) (L : ℝ → ℝ) (g0 : ℝ)
    (hL : HasDerivAt L g0 (Transform.lnp g t sampling z)) (i : Fin n) :
    HasDerivAt (fun x => L (Transform.lnp g t sampling (Function.update z i x)))
      (opGrad (Transform.lnpGrad g t sampling) g0 z i) (z i) := by
  have h := Transform.C31_object g t hb hchi hpr sampling z i
  have h0 : Function.update z i (z i) = z := Function.update_eq_self i z
  have := HasDerivAt.comp (h₂ := L) (z i) (by rw [h0]; exact hL) h
  exact this

/-- C139, the way the code fails: the box is applied to, and the chain holds, sampling parameters.  For a
model with bounds 0 and 1 and the box from 0 to 1, every vector in the box (its corner 0 apart) stands for a
different vector of scene parameters, all of which are at least one half. -/
theorem C139_transform_refuted (z : Fin n → ℝ) (hz : ∀ i, 0 ≤ z i ∧ z i ≤ 1) (i : Fin n) :
    1 / 2 ≤ (⟨fun _ => 0, fun _ => 1⟩ : Transform.Bounded n).transform z i ∧
      (⟨fun _ => 0, fun _ => 1⟩ : Transform.Bounded n).transform z i < 3 / 4 ∧
      (z i < 1 / 2 ∨ 3 / 4 ≤ z i →
        (⟨fun _ => 0, fun _ => 1⟩ : Transform.Bounded n).transform z i ≠ z i) := by
  have h1 : 0 < Real.exp (-z i) := Real.exp_pos _
  have h2 : Real.exp (-z i) ≤ 1 := Real.exp_le_one_iff.mpr (by linarith [(hz i).1])
  have h3 : 1 / 3 < Real.exp (-z i) := by
    have : Real.exp 1 < 3 := lt_trans Real.exp_one_lt_d9 (by norm_num)
    have h4 : Real.exp (-1) ≤ Real.exp (-z i) := Real.exp_le_exp.mpr (by linarith [(hz i).2])
    refine lt_of_lt_of_le ?_ h4
    rw [Real.exp_neg, ← one_div]
    exact one_div_lt_one_div_of_lt (Real.exp_pos 1) this
  have hT : (⟨fun _ => 0, fun _ => 1⟩ : Transform.Bounded n).transform z i = 1 / (1 + Real.exp (-z i)) := by
    simp only [Transform.Bounded.transform, Transform.Bounded.range, Transform.sigmoid]
    ring
  rw [hT]
  have a1 : 1 / 2 ≤ 1 / (1 + Real.exp (-z i)) := one_div_le_one_div_of_le (by linarith) (by linarith)
  have a2 : 1 / (1 + Real.exp (-z i)) < 3 / 4 := by
    rw [div_lt_div_iff₀ (by linarith) (by norm_num)]
    linarith
  refine ⟨a1, a2, ?_⟩
  rintro (h | h) e <;> rw [e] at a1 a2 <;> linarith

end

/-! ## A concrete case -/

/-- Two galaxies and a star. -/
def trio : Scene Int :=
  [gal1 false 3 0,
   { cls := .conformal false
     filternames := ["F1", "F_1"]
     flux := [4, 5]
     attr := fun a => if a = .ep then 6 else 7
     id := 1
     fixed := false },
   { cls := .star
     filternames := []
     flux := []
     attr := fun _ => 8
     id := 2
     fixed := false }]

theorem trio_numbered : Numbered trio := by
  intro i s hi
  rcases i with _ | _ | _ | i
  · obtain rfl := Option.some.inj hi
    exact ⟨rfl, rfl, by unfold GoodBands; decide +kernel⟩
  · obtain rfl := Option.some.inj hi
    exact ⟨rfl, rfl, by unfold GoodBands; decide +kernel⟩
  · obtain rfl := Option.some.inj hi
    exact ⟨rfl, rfl, by unfold GoodBands; decide +kernel⟩
  · simp [trio] at hi

/-- The sampler that returns the two corners of the box. -/
def corners : Sampler Int := fun box _ _ _ _ => [box.map Prod.fst, box.map Prod.snd]

/-- C139: a case that meets the conditions of the theorems above. -/
theorem C139_witness :
    trio ≠ [] ∧ Numbered trio ∧ (∀ s ∈ trio, s.fixed = false ∧ s.cls ≠ .base) ∧
    (∀ box f g a b, ∀ d ∈ corners box f g a b, d.length = box.length) ∧
    sceneNames trio = .ok ["F1_0", "ra_0", "dec_0", "q_0", "pa_0", "sersic_0", "rhalf_0", "F1_1", "F_1_1", "ra_1",
      "dec_1", "ep_1", "ec_1", "ra_2", "dec_2"] := by
  refine ⟨by simp [trio], trio_numbered, ?_, ?_, ?_⟩
  · intro s hs
    simp only [trio, List.mem_cons, List.not_mem_nil, or_false] at hs
    rcases hs with rfl | rfl | rfl
    · exact ⟨rfl, by decide⟩
    · exact ⟨rfl, by decide⟩
    · exact ⟨rfl, by decide⟩
  · intro box f g a b d hd
    simp only [corners, List.mem_cons, List.not_mem_nil, or_false] at hd
    rcases hd with rfl | rfl <;> simp
  · have : (trio.map parameterNames).flatten = ["F1_0", "ra_0", "dec_0", "q_0", "pa_0", "sersic_0", "rhalf_0", "F1_1", "F_1_1", "ra_1",
      "dec_1", "ep_1", "ec_1", "ra_2", "dec_2"] := by decide +kernel
    rw [sceneNames, concat_ok _ (by simp [trio]), this]

end Forcepho.Fitting.Pymc
