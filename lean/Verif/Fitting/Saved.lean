import Mathlib.Data.List.Basic
import Mathlib.Data.List.Nodup
import Mathlib.Tactic.Cases

/-! # Saving and reading results (forcepho/fitting.py:186-218)

A result is the dictionary of its attributes.  h5py is modelled by what it accepts: arrays of numbers or bytes
as datasets; numbers, and strings and lists up to a size limit, as attributes; neither None nor other objects.
-/

set_option autoImplicit false

namespace Forcepho.Saved

variable {K : Type}

/-- The element type of an array. Structured arrays count as the least storable of their fields. -/
inductive Kind where
  | number
  | bytes
  | unicode
  | object
  deriving DecidableEq

/-- Attribute values. -/
inductive Val (K : Type) where
  /-- a numpy array: shape and elements -/
  | arr (kind : Kind) (shape : List Nat) (data : List K)
  | num (x : K)
  | str (s : String)
  /-- a list or tuple of numbers -/
  | list (xs : List K)
  | none
  | other

/-- A dictionary in insertion order. -/
abbrev Dict (K : Type) := List (String × Val K)

/-- The file: datasets and attributes. -/
structure H5 (K : Type) where
  sets : Dict K
  attrs : Dict K

/-- What `h5py` does with an array: HDF5 has no type for unicode arrays and objects. -/
def storableKind : Kind → Bool
  | .number => true
  | .bytes => true
  | .unicode => false
  | .object => false

/-- `out.attrs[name] = value`: what is stored, if the value is accepted. A list becomes an array; `limit` is
HDF5's limit on the size of an attribute. -/
def storeAttr (limit : Nat) : Val K → Option (Val K)
  | .num x => some (.num x)
  | .str s => if s.length ≤ limit then some (.str s) else Option.none
  | .list xs => if xs.length ≤ limit then some (.arr .number [xs.length] xs) else Option.none
  | .arr _ _ _ => Option.none
  | .none => Option.none
  | .other => Option.none

/-- The exceptions of writing and reading results (fitting.py:186-218). -/
inductive Err where
  | fileNotFound
  | typeError
  | valueError
  deriving DecidableEq

/-- The loop of `dump_to_h5` (fitting.py:193-205): the file, the messages about attributes that were not
saved, and an exception. An exception for an array is not caught. -/
def dumpLoop (limit : Nat) : Dict K → H5 K → List String → H5 K × List String × Option Err
  | [], f, msgs => (f, msgs, Option.none)
  | (name, v) :: rest, f, msgs =>
    match v with
    | .arr kind shape data =>
      if storableKind kind then
        dumpLoop limit rest { f with sets := f.sets ++ [(name, .arr kind shape data)] } msgs
      else (f, msgs, some .typeError)
    | v =>
      match storeAttr limit v with
      | some w => dumpLoop limit rest { f with attrs := f.attrs ++ [(name, w)] } msgs
      | Option.none => dumpLoop limit rest f (msgs ++ [name])

/-- `dump_to_h5` (fitting.py:186-207): `os.makedirs('')` raises when the file name has no directory part.
Existing files are overwritten. -/
def dump (limit : Nat) (dirname : String) (obj : Dict K) : Option (H5 K) × List String × Option Err :=
  if dirname = "" then (Option.none, [], some .fileNotFound)
  else
    let r := dumpLoop limit obj ⟨[], []⟩ []
    (some r.1, r.2.1, r.2.2)

/-- `setattr`. -/
def setattr (obj : Dict K) (name : String) (v : Val K) : Dict K :=
  if obj.any fun p => p.1 == name then obj.map fun p => if p.1 = name then (name, v) else p
  else obj ++ [(name, v)]

/-- The loop over datasets (fitting.py:215-216): `f[k][:]` raises for an array without dimensions. -/
def readSets : Dict K → Dict K → Except Err (Dict K)
  | [], obj => .ok obj
  | (k, v) :: rest, obj =>
    match v with
    | .arr _ [] _ => .error .valueError
    | v => readSets rest (setattr obj k v)

/-- The loop over attributes (fitting.py:217-218). -/
def readAttrs : Dict K → Dict K → Dict K
  | [], obj => obj
  | (k, v) :: rest, obj => readAttrs rest (setattr obj k v)

/-- `Result(filename)` (fitting.py:28-36, 209-218) without the reconstruction. -/
def read (f : H5 K) : Except Err (Dict K) :=
  match readSets f.sets [] with
  | .error e => .error e
  | .ok obj => .ok (readAttrs f.attrs obj)

/-- `getattr`; `none` is an AttributeError. -/
def getattr (obj : Dict K) (name : String) : Option (Val K) := (obj.find? fun p => p.1 == name).map (·.2)

/-! ## Specification -/

/-- What is expected back for a saved value: lists come back as arrays; None, other objects and what is too
large do not come back. -/
def expected (limit : Nat) : Val K → Option (Val K)
  | .arr k s d => some (.arr k s d)
  | .num x => some (.num x)
  | .str s => if s.length ≤ limit then some (.str s) else Option.none
  | .list xs => if xs.length ≤ limit then some (.arr .number [xs.length] xs) else Option.none
  | .none => Option.none
  | .other => Option.none

/-! ## C90 -/

lemma getattr_setattr (obj : Dict K) (name : String) (v : Val K) (k : String) :
    getattr (setattr obj name v) k = if k = name then some v else getattr obj k := by
  unfold setattr
  split
  · rename_i h
    unfold getattr
    induction obj with
    | nil => simp at h
    | cons p rest ih =>
      rw [List.map_cons, List.find?_cons, List.find?_cons]
      by_cases hp : p.1 = name
      · rw [if_pos hp]
        by_cases hk : k = name
        · simp [hk]
        · have h1 : (name == k) = false := by simpa using fun e => hk e.symm
          have h2 : (p.1 == k) = false := by rw [hp]; exact h1
          simp only [h1, h2]
          rw [if_neg hk]
          by_cases hr : rest.any fun p => p.1 == name
          · rw [ih hr, if_neg hk]
          · have hid : rest.map (fun p => if p.1 = name then (name, v) else p) = rest := by
              conv_rhs => rw [← List.map_id rest]
              apply List.map_congr_left
              intro q hq
              have : ¬ q.1 = name := by
                intro e
                apply hr
                rw [List.any_eq_true]
                exact ⟨q, hq, by simp [e]⟩
              rw [if_neg this]; rfl
            rw [hid]
      · rw [if_neg hp]
        have hr : rest.any fun p => p.1 == name := by
          rw [List.any_cons] at h
          have : (p.1 == name) = false := by simpa using hp
          rw [this, Bool.false_or] at h
          exact h
        by_cases hk : p.1 = k
        · have hkn : ¬ k = name := by rw [← hk]; exact hp
          simp [hk, hkn]
        · have h2 : (p.1 == k) = false := by simpa using hk
          simp only [h2]
          exact ih hr
  · rename_i h
    have hno : ∀ p ∈ obj, ¬ p.1 = name := by
      intro p hp e
      exact h (List.any_eq_true.mpr ⟨p, hp, by simp [e]⟩)
    unfold getattr
    rw [List.find?_append]
    by_cases hk : k = name
    · have : obj.find? (fun p => p.1 == k) = Option.none := by
        rw [List.find?_eq_none]
        intro p hp
        simpa [hk] using hno p hp
      rw [this, if_pos hk]
      simp [hk]
    · rw [if_neg hk]
      have : (name == k) = false := by simpa using fun e => hk e.symm
      simp [List.find?_cons, this]

/-- The datasets and attributes written for a dictionary. -/
lemma dumpLoop_spec (limit : Nat) (obj : Dict K)
    (hk : ∀ name k s d, (name, Val.arr k s d) ∈ obj → storableKind k = true) :
    ∀ (f : H5 K) (msgs : List String), dumpLoop limit obj f msgs =
      (⟨f.sets ++ obj.filter fun p => match p.2 with | .arr _ _ _ => true | _ => false,
        f.attrs ++ obj.filterMap fun p => (storeAttr limit p.2).map fun w => (p.1, w)⟩,
       msgs ++ (obj.filter fun p => (expected limit p.2).isNone).map (·.1), Option.none) := by
  induction obj with
  | nil => intro f msgs; simp [dumpLoop]
  | cons p rest ih =>
    obtain ⟨name, v⟩ := p
    intro f msgs
    have ih' := ih fun name k s d h => hk name k s d (List.mem_cons_of_mem _ h)
    cases v with
    | arr k s d =>
      have := hk name k s d (by simp)
      simp [dumpLoop, this, ih', storeAttr, expected]
    | num x => simp [dumpLoop, ih', storeAttr, expected]
    | str s =>
      by_cases h : s.length ≤ limit
      · simp [dumpLoop, ih', storeAttr, expected, h]
      · simp [dumpLoop, ih', storeAttr, expected, h]
    | list xs =>
      by_cases h : xs.length ≤ limit
      · simp [dumpLoop, ih', storeAttr, expected, h]
      · simp [dumpLoop, ih', storeAttr, expected, h]
    | none => simp [dumpLoop, ih', storeAttr, expected]
    | other => simp [dumpLoop, ih', storeAttr, expected]

lemma getattr_none (obj : Dict K) (name : String) (h : name ∉ obj.map (·.1)) : getattr obj name = Option.none := by
  unfold getattr
  rw [List.find?_eq_none.mpr]
  · rfl
  · intro p hp
    simp only [beq_iff_eq]
    intro e
    exact h (List.mem_map.mpr ⟨p, hp, e⟩)

lemma getattr_mem (obj : Dict K) (hn : (obj.map (·.1)).Nodup) (name : String) (v : Val K) (h : (name, v) ∈ obj) :
    getattr obj name = some v := by
  induction obj with
  | nil => simp at h
  | cons p rest ih =>
    obtain ⟨n1, n2⟩ := List.nodup_cons.mp hn
    unfold getattr
    rw [List.find?_cons]
    rcases List.mem_cons.mp h with rfl | h
    · simp
    · have : (p.1 == name) = false := by
        simp only [beq_eq_false_iff_ne]
        intro e
        exact n1 (List.mem_map.mpr ⟨_, h, e.symm⟩)
      simp only [this]
      exact ih n2 h

lemma readAttrs_get (l : Dict K) (hn : (l.map (·.1)).Nodup) : ∀ (obj : Dict K) (k : String),
    getattr (readAttrs l obj) k = match getattr l k with | some v => some v | Option.none => getattr obj k := by
  induction l with
  | nil => intro obj k; rfl
  | cons p rest ih =>
    obtain ⟨name, v⟩ := p
    obtain ⟨n1, n2⟩ := List.nodup_cons.mp hn
    intro obj k
    rw [readAttrs, ih n2, getattr_setattr]
    by_cases hk : k = name
    · subst hk
      rw [getattr_none rest k n1]
      simp [getattr]
    · have : (name == k) = false := by simpa using fun e => hk e.symm
      simp [getattr, List.find?_cons, this, hk]

lemma readSets_get (l : Dict K) (hn : (l.map (·.1)).Nodup)
    (hl : ∀ p ∈ l, ∃ k s d, p.2 = Val.arr k s d ∧ s ≠ []) : ∀ obj : Dict K,
    ∃ out, readSets l obj = .ok out ∧ ∀ k, getattr out k =
      match getattr l k with | some v => some v | Option.none => getattr obj k := by
  induction l with
  | nil => intro obj; exact ⟨obj, rfl, fun k => rfl⟩
  | cons p rest ih =>
    obtain ⟨name, v⟩ := p
    obtain ⟨n1, n2⟩ := List.nodup_cons.mp hn
    intro obj
    obtain ⟨kd, s, d, hv, hs⟩ := hl _ (List.mem_cons_self ..)
    dsimp only at hv
    subst hv
    obtain ⟨a, as, rfl⟩ := List.exists_cons_of_ne_nil hs
    obtain ⟨out, ho, hg⟩ := ih n2 (fun p hp => hl p (List.mem_cons_of_mem _ hp)) (setattr obj name (.arr kd (a :: as) d))
    refine ⟨out, ho, ?_⟩
    intro k
    rw [hg, getattr_setattr]
    by_cases hk : k = name
    · subst hk
      rw [getattr_none rest k n1]
      simp [getattr]
    · have : (name == k) = false := by simpa using fun e => hk e.symm
      simp [getattr, List.find?_cons, this, hk]

/-- C90: a result whose arrays hold numbers or bytes and have at least one dimension is saved and read back:
every attribute has the same value again, lists as arrays; exactly the attributes that are None, other objects
or too large are missing, and they are named in the returned messages. -/
theorem C90_roundtrip_partial (limit : Nat) (dirname : String) (hd : dirname ≠ "") (obj : Dict K)
    (hn : (obj.map (·.1)).Nodup)
    (hk : ∀ name k s d, (name, Val.arr k s d) ∈ obj → (k = .number ∨ k = .bytes) ∧ s ≠ []) :
    ∃ f msgs out, dump limit dirname obj = (some f, msgs, Option.none) ∧ read f = .ok out ∧
      (∀ name v, (name, v) ∈ obj → getattr out name = expected limit v) ∧
      (∀ name, name ∉ obj.map (·.1) → getattr out name = Option.none) ∧
      (∀ name, name ∈ msgs ↔ ∃ v, (name, v) ∈ obj ∧ getattr out name = Option.none) := by
  have hst : ∀ name k s d, (name, Val.arr k s d) ∈ obj → storableKind k = true := by
    intro name k s d h
    rcases (hk name k s d h).1 with rfl | rfl <;> rfl
  have hspec := dumpLoop_spec limit obj hst ⟨[], []⟩ []
  simp only [List.nil_append] at hspec
  obtain ⟨S, hS⟩ : ∃ S, S = obj.filter fun p => match p.2 with | .arr _ _ _ => true | _ => false := ⟨_, rfl⟩
  obtain ⟨A, hA⟩ : ∃ A, A = obj.filterMap fun p => (storeAttr limit p.2).map fun w => (p.1, w) := ⟨_, rfl⟩
  rw [← hS, ← hA] at hspec
  have hSn : (S.map (·.1)).Nodup := by
    rw [hS]; exact hn.sublist (List.Sublist.map _ List.filter_sublist)
  have hAmap : ∀ l : Dict K, (l.map (·.1)).Nodup →
      ((l.filterMap fun p => (storeAttr limit p.2).map fun w => (p.1, w)).map (·.1)).Nodup := by
    intro l hl
    have e : ((l.filterMap fun p => (storeAttr limit p.2).map fun w => (p.1, w)).map (·.1)).Sublist (l.map (·.1)) := by
      clear hl
      induction l with
      | nil => simp
      | cons p rest ih =>
        rw [List.filterMap_cons]
        cases h : storeAttr limit p.2 with
        | none => simpa using ih.cons p.1
        | some w => simpa using ih.cons₂ p.1
    exact hl.sublist e
  have hAn : (A.map (·.1)).Nodup := by rw [hA]; exact hAmap obj hn
  have hSl : ∀ p ∈ S, ∃ k s d, p.2 = Val.arr k s d ∧ s ≠ [] := by
    intro p hp
    rw [hS, List.mem_filter] at hp
    obtain ⟨name, v⟩ := p
    cases v with
    | arr k s d => exact ⟨k, s, d, rfl, (hk name k s d hp.1).2⟩
    | _ => simp at hp
  obtain ⟨o1, ho1, hg1⟩ := readSets_get S hSn hSl []
  have hout : ∀ k, getattr (readAttrs A o1) k =
      match getattr A k with
      | some v => some v
      | Option.none => match getattr S k with | some v => some v | Option.none => Option.none := by
    intro k
    rw [readAttrs_get A hAn, hg1]
    cases getattr A k with
    | some v => rfl
    | none => cases getattr S k <;> rfl
  have uniq : ∀ name v w, (name, v) ∈ obj → (name, w) ∈ obj → v = w := by
    intro name v w h1 h2
    have e1 := getattr_mem obj hn name v h1
    rw [getattr_mem obj hn name w h2] at e1
    exact (Option.some.inj e1).symm
  have hval : ∀ name v, (name, v) ∈ obj → getattr (readAttrs A o1) name = expected limit v := by
    intro name v hv
    rw [hout]
    have hnotS : ¬ (∃ k s d, v = Val.arr k s d) → name ∉ S.map (·.1) := by
      intro hna hm
      obtain ⟨p, hp, rfl⟩ := List.mem_map.mp hm
      obtain ⟨k, s, d, e, -⟩ := hSl p hp
      rw [hS, List.mem_filter] at hp
      have := uniq p.1 p.2 v hp.1 hv
      exact hna ⟨k, s, d, by rw [← this, e]⟩
    have hnotA : storeAttr limit v = Option.none → name ∉ A.map (·.1) := by
      intro hna hm
      obtain ⟨p, hp, rfl⟩ := List.mem_map.mp hm
      rw [hA, List.mem_filterMap] at hp
      obtain ⟨q, hq, e⟩ := hp
      obtain ⟨w, hw, rfl⟩ := Option.map_eq_some_iff.mp e
      have := uniq q.1 q.2 v hq hv
      rw [this, hna] at hw
      cases hw
    have hinA : ∀ w, storeAttr limit v = some w → getattr A name = some w := by
      intro w hw
      apply getattr_mem A hAn
      rw [hA, List.mem_filterMap]
      exact ⟨(name, v), hv, by simp [hw]⟩
    cases v with
    | arr k s d =>
      rw [getattr_none A name (hnotA rfl)]
      have : getattr S name = some (.arr k s d) := by
        apply getattr_mem S hSn
        rw [hS, List.mem_filter]
        exact ⟨hv, rfl⟩
      rw [this]; rfl
    | num x => rw [hinA _ rfl]; rfl
    | str s =>
      by_cases h : s.length ≤ limit
      · have hs : storeAttr (K := K) limit (.str s) = some (.str s) := by simp [storeAttr, h]
        rw [hinA _ hs]; simp [expected, h]
      · have hs : storeAttr (K := K) limit (.str s) = Option.none := by simp [storeAttr, h]
        rw [getattr_none A name (hnotA hs), getattr_none S name (hnotS (by rintro ⟨_, _, _, e⟩; cases e))]
        simp [expected, h]
    | list xs =>
      by_cases h : xs.length ≤ limit
      · have hs : storeAttr limit (.list xs) = some (.arr .number [xs.length] xs) := by simp [storeAttr, h]
        rw [hinA _ hs]; simp [expected, h]
      · have hs : storeAttr limit (.list xs) = Option.none := by simp [storeAttr, h]
        rw [getattr_none A name (hnotA hs), getattr_none S name (hnotS (by rintro ⟨_, _, _, e⟩; cases e))]
        simp [expected, h]
    | none =>
      rw [getattr_none A name (hnotA rfl), getattr_none S name (hnotS (by rintro ⟨_, _, _, e⟩; cases e))]
      rfl
    | other =>
      rw [getattr_none A name (hnotA rfl), getattr_none S name (hnotS (by rintro ⟨_, _, _, e⟩; cases e))]
      rfl
  refine ⟨⟨S, A⟩, (obj.filter fun p => (expected limit p.2).isNone).map (·.1), readAttrs A o1, ?_, ?_, hval, ?_, ?_⟩
  · unfold dump
    rw [if_neg hd, hspec]
  · simp only [read, ho1]
  · intro name hname
    rw [hout]
    have h1 : name ∉ A.map (·.1) := by
      intro hm
      obtain ⟨p, hp, rfl⟩ := List.mem_map.mp hm
      rw [hA, List.mem_filterMap] at hp
      obtain ⟨q, hq, e⟩ := hp
      obtain ⟨w, hw, rfl⟩ := Option.map_eq_some_iff.mp e
      exact hname (List.mem_map.mpr ⟨q, hq, rfl⟩)
    have h2 : name ∉ S.map (·.1) := by
      intro hm
      obtain ⟨p, hp, rfl⟩ := List.mem_map.mp hm
      rw [hS, List.mem_filter] at hp
      exact hname (List.mem_map.mpr ⟨p, hp.1, rfl⟩)
    rw [getattr_none A name h1, getattr_none S name h2]
  · intro name
    constructor
    · intro h
      obtain ⟨p, hp, rfl⟩ := List.mem_map.mp h
      rw [List.mem_filter] at hp
      refine ⟨p.2, hp.1, ?_⟩
      rw [hval p.1 p.2 hp.1]
      exact Option.isNone_iff_eq_none.mp hp.2
    · rintro ⟨v, hv, hn'⟩
      rw [hval name v hv] at hn'
      exact List.mem_map.mpr ⟨(name, v), List.mem_filter.mpr ⟨hv, by simp [hn']⟩, rfl⟩

/-- C90 is refuted outside that: a file name without directory cannot be written; an array of unicode strings
makes saving raise, with the attributes after it not written; an array without dimensions is saved but makes
reading the whole file raise. -/
theorem C90_refuted (limit : Nat) :
    (∀ obj : Dict K, dump limit "" obj = (Option.none, [], some .fileNotFound)) ∧
    (∀ (pre post : Dict K) (name : String) (s : List Nat) (d : List K) (dirname : String), dirname ≠ "" →
      (∀ name k s d, (name, Val.arr k s d) ∈ pre → k = .number) →
      ∃ f msgs, dump limit dirname (pre ++ (name, .arr .unicode s d) :: post) = (some f, msgs, some .typeError) ∧
        ∀ p ∈ f.sets ++ f.attrs, p.1 ∈ pre.map (·.1)) ∧
    (∀ (obj : Dict K) (name : String) (d : List K) (dirname : String), dirname ≠ "" →
      (∀ name k s d, (name, Val.arr k s d) ∈ obj → k = .number) → (name, Val.arr .number [] d) ∈ obj →
      ∃ f msgs, dump limit dirname obj = (some f, msgs, Option.none) ∧ read f = .error .valueError) := by
  refine ⟨fun obj => rfl, ?_, ?_⟩
  · intro pre post name s d dirname hd hpre
    have gen : ∀ (pre : Dict K), (∀ name k s d, (name, Val.arr k s d) ∈ pre → k = .number) →
        ∀ (f : H5 K) (msgs : List String), ∃ f' msgs',
        dumpLoop limit (pre ++ (name, .arr .unicode s d) :: post) f msgs = (f', msgs', some .typeError) ∧
        ∀ p ∈ f'.sets ++ f'.attrs, p ∈ f.sets ++ f.attrs ∨ p.1 ∈ pre.map (·.1) := by
      intro pre
      induction pre with
      | nil =>
        intro _ f msgs
        exact ⟨f, msgs, by simp [dumpLoop, storableKind], fun p hp => Or.inl hp⟩
      | cons q rest ih =>
        obtain ⟨qn, v⟩ := q
        intro hq f msgs
        have hrest := ih fun name k s d h => hq name k s d (List.mem_cons_of_mem _ h)
        cases v with
        | arr k s' d' =>
          obtain rfl := hq qn k s' d' (by simp)
          obtain ⟨f', m', h1, h2⟩ := hrest { f with sets := f.sets ++ [(qn, .arr .number s' d')] } msgs
          refine ⟨f', m', by simpa [dumpLoop, storableKind] using h1, fun p hp => ?_⟩
          rcases h2 p hp with h | h
          · simp only [List.mem_append, List.mem_singleton] at h
            rcases h with (h | h) | h
            · left; simp [h]
            · right; simp [h]
            · left; simp [h]
          · right; simp only [List.map_cons, List.mem_cons]; exact Or.inr h
        | _ =>
          simp only [List.cons_append, dumpLoop]
          split
          · rename_i w' hw'
            obtain ⟨f', m', h1, h2⟩ := hrest { f with attrs := f.attrs ++ [(qn, w')] } msgs
            refine ⟨f', m', h1, fun p hp => ?_⟩
            rcases h2 p hp with h | h
            · simp only [List.mem_append, List.mem_singleton] at h
              rcases h with h | h | h
              · left; simp [h]
              · left; simp [h]
              · right; simp [h]
            · right; simp only [List.map_cons, List.mem_cons]; exact Or.inr h
          · obtain ⟨f', m', h1, h2⟩ := hrest f (msgs ++ [qn])
            refine ⟨f', m', h1, fun p hp => ?_⟩
            rcases h2 p hp with h | h
            · left; exact h
            · right; simp only [List.map_cons, List.mem_cons]; exact Or.inr h
    obtain ⟨f', m', h1, h2⟩ := gen pre hpre ⟨[], []⟩ []
    refine ⟨f', m', ?_, fun p hp => ?_⟩
    · unfold dump
      rw [if_neg hd, h1]
    · rcases h2 p hp with h | h
      · simp at h
      · exact h
  · intro obj name d dirname hd hk hm
    have hst : ∀ name k s d, (name, Val.arr k s d) ∈ obj → storableKind k = true := by
      intro name k s d h
      rw [hk name k s d h]; rfl
    have hspec := dumpLoop_spec limit obj hst ⟨[], []⟩ []
    refine ⟨(dumpLoop limit obj ⟨[], []⟩ []).1, (dumpLoop limit obj ⟨[], []⟩ []).2.1, ?_, ?_⟩
    · unfold dump
      rw [if_neg hd]
      dsimp only
      rw [hspec]
    · have gen : ∀ (l : Dict K), (name, Val.arr .number [] d) ∈ l → ∀ o, readSets l o = .error .valueError := by
        intro l
        induction l with
        | nil => intro h; simp at h
        | cons q rest ih =>
          obtain ⟨qn, v⟩ := q
          intro h o
          rcases List.mem_cons.mp h with h | h
          · cases h; rfl
          · unfold readSets
            split
            · rfl
            · exact ih h _
      unfold read
      rw [gen]
      rw [hspec]
      dsimp only
      rw [List.nil_append]
      exact List.mem_filter.mpr ⟨hm, rfl⟩

/-- A result with an array, a list and a missing value. -/
example : (match dump (K := Int) 64000 "out" [("chain", .arr .number [2] [1, 2]), ("dpos", .list [3]), ("fixed", .none)] with
    | (some f, msgs, Option.none) => (match read f with | .ok o => some (o.map (·.1), msgs) | .error _ => Option.none)
    | _ => Option.none) = some (["chain", "dpos"], ["fixed"]) := rfl

end Forcepho.Saved
