import Verif.Device.Ledger
import Mathlib.Data.List.Nodup
import Mathlib.Data.List.Basic

/-!
# How the patch classes are put together

A patch that can be fitted is made by inheriting from a storage class and a device mixin,
`class Patcher(FITSPatch, CPUPatchMixin)` (docs/usage.md:46), `class JadesPatch(StorePatch,
GPUPatchMixin)` (patches/__init__.py:12).  Which function a method call runs is decided by Python's
method resolution order: the C3 linearisation of the class graph, of which the first class that
defines the name wins.

The model has the C3 algorithm, the classes of `forcepho.patches` with the names each defines, and
classes a user may add below them.  `object` is left out: it defines none of the names considered.
-/

set_option autoImplicit false

namespace Forcepho.Device.Classes

/-! ## C3 -/

/-- The first head that is in no tail. -/
def candidate {C : Type} [DecidableEq C] (ls : List (List C)) : Option C :=
  (ls.filterMap List.head?).find? fun h => ls.all fun l => !(l.tail.contains h)

/-- Removing a class from the front of the lists it heads. -/
def removeHead {C : Type} [DecidableEq C] (h : C) (l : List C) : List C :=
  if l.head? = some h then l.tail else l

/-- The merge of C3: repeatedly take the first head that is in no tail; `none` when there is none
(Python raises `TypeError`).  The first argument bounds the number of rounds. -/
def merge {C : Type} [DecidableEq C] : Nat → List (List C) → Option (List C)
  | 0, _ => none
  | n + 1, ls =>
    let ls := ls.filter fun l => !l.isEmpty
    if ls.isEmpty then some []
    else
      match candidate ls with
      | none => none
      | some h => (merge n (ls.map (removeHead h))).map (h :: ·)

/-- All the results, when there are all. -/
def allSome {α : Type} : List (Option α) → Option (List α)
  | [] => some []
  | x :: xs =>
    match x, allSome xs with
    | some a, some as => some (a :: as)
    | _, _ => none

/-- The linearisation of a class: itself, then the merge of the linearisations of its bases and of
the list of its bases.  The first argument bounds the depth of the class graph. -/
def mro {C : Type} [DecidableEq C] (bases : C → List C) : Nat → C → Option (List C)
  | 0, _ => none
  | n + 1, c =>
    match allSome ((bases c).map (mro bases n)) with
    | none => none
    | some ls =>
      let ms := ls ++ [bases c]
      (merge ((ms.map List.length).sum + 1) ms).map (c :: ·)

/-! ## The classes of forcepho.patches -/

/-- The classes of `forcepho.patches`, and classes a user derives from them: `sub` with one base,
`pair` with two, each with the names it defines itself. -/
inductive Cls
  | patchBase | patch | pixelPatch | storePatch | fitsPatch | directPatch | staticPatch
  | devicePatchMixin | gpuPatchMixin | cpuPatchMixin
  | jadesPatch | simplePatch
  | sub (base : Cls) (names : List String)
  | pair (first second : Cls) (names : List String)
  deriving DecidableEq, Repr

open Cls

/-- The bases in the order they are written (patch.py:20, 200; pixel_patch.py:23, 216, 348, 488;
static_patch.py:16; device_patch.py:23, 260, 441; patches/__init__.py:12, 16). -/
def bases : Cls → List Cls
  | patchBase => []
  | patch => [patchBase]
  | pixelPatch => [patch]
  | storePatch => [pixelPatch]
  | fitsPatch => [pixelPatch]
  | directPatch => [pixelPatch]
  | staticPatch => [patchBase]
  | devicePatchMixin => []
  | gpuPatchMixin => [devicePatchMixin]
  | cpuPatchMixin => [devicePatchMixin]
  | jadesPatch => [storePatch, gpuPatchMixin]
  | simplePatch => [fitsPatch, gpuPatchMixin]
  | sub b _ => [b]
  | pair a b _ => [a, b]

/-- The names each class defines (patch.py:79-121, 221-482; pixel_patch.py:31-212, 233-304, 359-438,
507-548; static_patch.py:24-238; device_patch.py:28-256, 265-395, 446-548). -/
def defines : Cls → List String
  | patchBase => ["__init__", "npix", "size", "clear", "free", "__del__", "build_patch"]
  | patch => ["__init__", "pack_meta", "_pack_source_metadata", "_pack_astrometry", "_pack_fluxcal",
      "_pack_psf", "set_scene", "zerocoords", "unzerocoords", "split_pix", "split_band"]
  | pixelPatch => ["__init__", "build_patch", "pack_pix", "_cap_snr", "find_exposures",
      "find_pixels"]
  | storePatch => ["__init__", "find_exposures", "find_pixels"]
  | fitsPatch => ["__init__", "find_exposures", "find_pixels"]
  | directPatch => ["__init__", "find_exposures", "find_pixels"]
  | staticPatch => ["__init__", "build_patch", "pack_psf", "pack_source_metadata",
      "pack_astrometry", "pack_pix"]
  | devicePatchMixin => ["prepare_model", "send_to_device", "swap_on_device",
      "replace_device_meta_ptrs", "send_patchstruct_to_device", "retrieve_array", "get_proposer",
      "subtract_fixed", "design_matrix", "render", "free"]
  | gpuPatchMixin => ["get_proposer", "send_to_device", "replace_device_meta_ptrs",
      "send_patchstruct_to_device", "swap_on_device", "retrieve_array", "free",
      "test_struct_transfer"]
  | cpuPatchMixin => ["get_proposer", "send_to_device", "replace_device_meta_ptrs",
      "send_patchstruct_to_device", "swap_on_device", "retrieve_array"]
  | jadesPatch => []
  | simplePatch => []
  | sub _ ns => ns
  | pair _ _ ns => ns

/-- Enough rounds for the class graph below a class. -/
def depth : Cls → Nat
  | sub b _ => depth b + 1
  | pair a b _ => max (depth a) (depth b) + 1
  | _ => 6

/-- `C.__mro__` without `object`; `none` where the class statement raises `TypeError`. -/
def order (c : Cls) : Option (List Cls) := mro bases (depth c) c

/-- The class whose function `instance.name` runs; `none` for `AttributeError`. -/
def resolve (c : Cls) (name : String) : Option Cls :=
  (order c).bind fun l => l.find? fun k => (defines k).contains name

/-! ## Releasing the memory -/

/-- `patch.free()` by the class of the patch (patch.py:114-115 `pass`, device_patch.py:256-257
`pass`, device_patch.py:377-393).  Overrides of a user are not modelled: `none`. -/
def callFree (c : Cls) (g : Gpu) : Option (Option Err × Gpu) :=
  match resolve c "free" with
  | some patchBase => some (none, g)
  | some devicePatchMixin => some (none, g)
  | some gpuPatchMixin => some g.free
  | _ => none

/-- `clear()` (patch.py:107-112): the packed attributes are deleted. -/
def clear (g : Gpu) : Gpu := { g with attr := fun _ => none }

/-- The instance dictionary is released: the handles in `device_ptrs` and `device_patch` are
destroyed, and each releases its buffer unless it was freed. -/
def dropHandles (g : Gpu) : Gpu :=
  let g1 := g.resetPtrs
  match g1.struct with
  | none => g1
  | some s =>
    { g1 with
      struct := none
      cell := fun a => if a = s ∧ g1.Live a then { g1.cell a with reclaimed := true } else g1.cell a }

/-- The destruction of a patch: `__del__` calls `free` and `clear` (patch.py:117-119), an exception
in it is ignored, then the instance dictionary goes. -/
def destroy (c : Cls) (g : Gpu) : Option Gpu :=
  (callFree c g).map fun r =>
    match r.1 with
    | none => dropHandles (clear r.2)
    | some _ => dropHandles r.2

/-- The attributes of a patch with the bytes they occupy; `none` inside for a value without
`nbytes`. -/
abbrev Attrs := Name → Option (Option Nat)

/-- `size` (patch.py:97-105): names in the structure that are missing or have no `nbytes` count
nothing. -/
def size (t : Attrs) : Nat :=
  (names.map fun n => match t n with
    | some (some b) => b
    | _ => 0).sum

/-- `npix` (patch.py:89-95): the length of `xpix`, zero when it is missing. -/
def npix (xpix : Option Nat) : Nat := xpix.getD 0

/-- `clear` on the attributes (patch.py:107-112): only the names of the structure are deleted. -/
def clearAttrs {V : Type} (inStruct : String → Bool) (t : String → Option V) : String → Option V :=
  fun n => if inStruct n then none else t n

/-! ## C3 in general -/

section General

variable {C : Type} [DecidableEq C]

lemma candidate_spec (ls : List (List C)) (h : C) (hc : candidate ls = some h) :
    (∃ l ∈ ls, l.head? = some h) ∧ ∀ l ∈ ls, h ∉ l.tail := by
  unfold candidate at hc
  have h1 := List.mem_of_find?_eq_some hc
  have h2 := List.find?_some hc
  constructor
  · obtain ⟨l, hl, e⟩ := List.mem_filterMap.mp h1
    exact ⟨l, hl, e⟩
  · intro l hl
    have := List.all_eq_true.mp h2 l hl
    simpa using this

lemma removeHead_mem (h : C) (l : List C) (x : C) (hx : x ∈ removeHead h l) : x ∈ l := by
  unfold removeHead at hx
  split at hx
  · exact List.mem_of_mem_tail hx
  · exact hx

lemma removeHead_not_mem (h : C) (l : List C) (ht : h ∉ l.tail) : h ∉ removeHead h l := by
  unfold removeHead
  split
  · exact ht
  · rename_i k
    cases l with
    | nil => simp
    | cons a t =>
      simp only [List.head?_cons, Option.some.injEq] at k
      simp only [List.tail_cons] at ht
      simp only [List.mem_cons, not_or]
      exact ⟨fun e => k e.symm, ht⟩

/-- What a merge gives: each list in its order, no other class, none twice. -/
lemma merge_spec (n : Nat) : ∀ (ls : List (List C)) (r : List C), merge n ls = some r →
    (∀ l ∈ ls, l.Sublist r) ∧ (∀ x ∈ r, ∃ l ∈ ls, x ∈ l) ∧ r.Nodup := by
  induction n with
  | zero => intro ls r h; simp [merge] at h
  | succ n ih =>
    intro ls r h
    simp only [merge] at h
    split at h
    · rename_i he
      simp only [Option.some.injEq] at h
      subst h
      refine ⟨?_, by simp, List.nodup_nil⟩
      intro l hl
      rw [List.isEmpty_iff, List.filter_eq_nil_iff] at he
      have := he l hl
      simp only [Bool.not_eq_true', Bool.not_eq_false, List.isEmpty_iff] at this
      subst this
      exact List.Sublist.refl _
    · split at h
      · cases h
      · rename_i c hc
        obtain ⟨⟨l0, hl0, hh0⟩, ht⟩ := candidate_spec _ _ hc
        cases hm : merge n (((ls.filter fun l => !l.isEmpty)).map (removeHead c)) with
        | none => rw [hm] at h; cases h
        | some r' =>
          rw [hm] at h
          simp only [Option.map_some, Option.some.injEq] at h
          subst h
          obtain ⟨i1, i2, i3⟩ := ih _ _ hm
          refine ⟨?_, ?_, ?_⟩
          · intro l hl
            by_cases he : l = []
            · subst he; exact List.nil_sublist _
            · have hf : l ∈ ls.filter fun l => !l.isEmpty := by
                rw [List.mem_filter]; exact ⟨hl, by simpa using he⟩
              have := i1 _ (List.mem_map_of_mem (f := removeHead c) hf)
              unfold removeHead at this
              split at this
              · rename_i k
                cases l with
                | nil => exact List.nil_sublist _
                | cons a t =>
                  simp only [List.head?_cons, Option.some.injEq] at k
                  subst k
                  exact this.cons_cons _
              · exact this.cons _
          · intro x hx
            rcases List.mem_cons.mp hx with e | hx
            · subst e
              refine ⟨l0, (List.mem_filter.mp hl0).1, ?_⟩
              exact List.mem_of_mem_head? hh0
            · obtain ⟨l, hl, hxl⟩ := i2 x hx
              obtain ⟨l1, hl1, e⟩ := List.mem_map.mp hl
              subst e
              exact ⟨l1, (List.mem_filter.mp hl1).1, removeHead_mem _ _ _ hxl⟩
          · refine List.nodup_cons.mpr ⟨?_, i3⟩
            intro hx
            obtain ⟨l, hl, hxl⟩ := i2 _ hx
            obtain ⟨l1, hl1, e⟩ := List.mem_map.mp hl
            subst e
            exact removeHead_not_mem _ _ (ht _ hl1) hxl

lemma merge_nils (n : Nat) (ls : List (List C)) (h : ∀ l ∈ ls, l = []) :
    merge (n + 1) ls = some [] := by
  have : (ls.filter fun l => !l.isEmpty) = [] := by
    rw [List.filter_eq_nil_iff]
    intro l hl
    rw [h l hl]; simp
  simp [merge, this]

/-- Empty lists do not matter. -/
lemma merge_congr (n : Nat) (ls ms : List (List C))
    (h : (ls.filter fun l => !l.isEmpty) = ms.filter fun l => !l.isEmpty) :
    merge n ls = merge n ms := by
  cases n with
  | zero => rfl
  | succ n => simp only [merge, h]

lemma merge_single (B : List C) : B.Nodup → ∀ (n : Nat), B.length < n → merge n [B] = some B := by
  induction B with
  | nil =>
    intro _ n hn
    obtain ⟨m, rfl⟩ : ∃ m, n = m + 1 := ⟨n - 1, by simp at hn; omega⟩
    exact merge_nils m _ (by simp)
  | cons b B ih =>
    intro hd n hn
    obtain ⟨m, rfl⟩ : ∃ m, n = m + 1 := ⟨n - 1, by simp at hn; omega⟩
    obtain ⟨hb, hB⟩ := List.nodup_cons.mp hd
    have e := ih hB m (by simpa using hn)
    have hc : candidate [b :: B] = some b := by simp [candidate, hb]
    have hr : [b :: B].map (removeHead b) = [B] := by simp [removeHead]
    have hf : ([b :: B].filter fun l => !l.isEmpty) = [b :: B] := by simp
    rw [merge]
    simp only [hf, hc, hr, e]
    simp

/-- Two lists, the second headed by `y`, and `[y]`: the lists one after the other. -/
lemma merge_two (y : C) (B : List C) : ∀ (A : List C), (A ++ y :: B).Nodup → ∀ (n : Nat),
    A.length + B.length + 1 < n → merge n [A, y :: B, [y]] = some (A ++ y :: B) := by
  intro A
  induction A with
  | nil =>
    intro hd n hn
    obtain ⟨m, rfl⟩ : ∃ m, n = m + 1 := ⟨n - 1, by omega⟩
    obtain ⟨hb, hB⟩ := List.nodup_cons.mp hd
    have e := merge_single B hB m (by simp at hn; omega)
    rw [← merge_congr m [B, []] [B] (by simp [List.filter_cons])] at e
    have hc : candidate [y :: B, [y]] = some y := by simp [candidate, hb]
    have hr : [y :: B, [y]].map (removeHead y) = [B, []] := by simp [removeHead]
    have hf : ([[], y :: B, [y]].filter fun l => !l.isEmpty) = [y :: B, [y]] := by simp
    rw [merge]
    simp only [hf, hc, hr, e]
    simp
  | cons a A ih =>
    intro hd n hn
    obtain ⟨m, rfl⟩ : ∃ m, n = m + 1 := ⟨n - 1, by omega⟩
    rw [List.cons_append] at hd
    obtain ⟨ha, hA⟩ := List.nodup_cons.mp hd
    have e := ih hA m (by simp at hn; omega)
    have h1 : a ∉ A := fun h => ha (List.mem_append_left _ h)
    have h2 : a ≠ y := fun h => ha (by simp [h])
    have h3 : a ∉ B := fun h => ha (by simp [h])
    have h4 : y ≠ a := fun h => h2 h.symm
    have hc : candidate [a :: A, y :: B, [y]] = some a := by
      simp [candidate, h1, h3]
    have hf : ([a :: A, y :: B, [y]].filter fun l => !l.isEmpty) = [a :: A, y :: B, [y]] := by
      simp
    have hr : [a :: A, y :: B, [y]].map (removeHead a) = [A, y :: B, [y]] := by
      simp [removeHead, h4]
    rw [merge]
    simp only [hf, hc, hr, e]
    simp

/-- Two disjoint linearisations and the list of the two classes: one after the other. -/
lemma merge_pair (x y : C) (A B : List C) (hd : ((x :: A) ++ y :: B).Nodup) (n : Nat)
    (hn : A.length + B.length + 2 < n) :
    merge n [x :: A, y :: B, [x, y]] = some ((x :: A) ++ y :: B) := by
  obtain ⟨m, rfl⟩ : ∃ m, n = m + 1 := ⟨n - 1, by omega⟩
  rw [List.cons_append] at hd
  obtain ⟨ha, hA⟩ := List.nodup_cons.mp hd
  have h1 : x ∉ A := fun h => ha (List.mem_append_left _ h)
  have h2 : x ≠ y := fun h => ha (by simp [h])
  have h3 : x ∉ B := fun h => ha (by simp [h])
  have h4 : y ≠ x := fun h => h2 h.symm
  have e := merge_two y B A hA m (by omega)
  have hc : candidate [x :: A, y :: B, [x, y]] = some x := by
    simp [candidate, h1, h2, h3]
  have hr : [x :: A, y :: B, [x, y]].map (removeHead x) = [A, y :: B, [y]] := by
    simp [removeHead, h4]
  have hf : ([x :: A, y :: B, [x, y]].filter fun l => !l.isEmpty) = [x :: A, y :: B, [x, y]] := by
    simp
  rw [merge]
  simp only [hf, hc, hr, e]
  simp

omit [DecidableEq C] in
lemma allSome_map {D : Type} (f : D → Option (List C)) (l : List D) (r : List (List C)) :
    allSome (l.map f) = some r ↔ List.Forall₂ (fun d x => f d = some x) l r := by
  induction l generalizing r with
  | nil =>
    simp only [List.map_nil, allSome, Option.some.injEq, List.forall₂_nil_left_iff]
    exact eq_comm
  | cons a l ih =>
    simp only [List.map_cons, allSome]
    constructor
    · intro h
      split at h
      · rename_i x xs h1 h2
        simp only [Option.some.injEq] at h
        subst h
        exact .cons h1 ((ih _).mp h2)
      · cases h
    · intro h
      cases h with
      | cons h1 h2 =>
        rw [h1, (ih _).mpr h2]

omit [DecidableEq C] in
lemma forall₂_left {D : Type} (f : D → Option (List C)) (l : List D) (r : List (List C))
    (h : List.Forall₂ (fun d x => f d = some x) l r) (d : D) (hd : d ∈ l) :
    ∃ x ∈ r, f d = some x := by
  induction h with
  | nil => cases hd
  | cons h1 _ ih =>
    rcases List.mem_cons.mp hd with e | hd
    · subst e; exact ⟨_, by simp, h1⟩
    · obtain ⟨x, hx, e⟩ := ih hd
      exact ⟨x, by simp [hx], e⟩

omit [DecidableEq C] in
lemma forall₂_right {D : Type} (f : D → Option (List C)) (l : List D) (r : List (List C))
    (h : List.Forall₂ (fun d x => f d = some x) l r) (x : List C) (hx : x ∈ r) :
    ∃ d ∈ l, f d = some x := by
  induction h with
  | nil => cases hx
  | cons h1 _ ih =>
    rcases List.mem_cons.mp hx with e | hx
    · subst e; exact ⟨_, by simp, h1⟩
    · obtain ⟨d, hd, e⟩ := ih hx
      exact ⟨d, by simp [hd], e⟩

/-- More rounds change nothing. -/
lemma mro_mono (bs : C → List C) (n : Nat) : ∀ (c : C) (r : List C), mro bs n c = some r →
    mro bs (n + 1) c = some r := by
  induction n with
  | zero => intro c r h; simp [mro] at h
  | succ n ih =>
    intro c r h
    rw [mro] at h ⊢
    cases hs : allSome ((bs c).map (mro bs n)) with
    | none => rw [hs] at h; cases h
    | some ls =>
      rw [hs] at h
      have : allSome ((bs c).map (mro bs (n + 1))) = some ls := by
        rw [allSome_map] at hs ⊢
        exact hs.imp fun d x hx => ih d x hx
      rw [this]
      exact h

lemma mro_le (bs : C → List C) (n m : Nat) (h : n ≤ m) (c : C) (r : List C)
    (hr : mro bs n c = some r) : mro bs m c = some r := by
  induction m, h using Nat.le_induction with
  | base => exact hr
  | succ m _ ih => exact mro_mono bs m c r ih

lemma mro_head (bs : C → List C) (n : Nat) (c : C) (r : List C) (h : mro bs n c = some r) :
    ∃ t, r = c :: t ∧ t.Nodup := by
  cases n with
  | zero => simp [mro] at h
  | succ n =>
    rw [mro] at h
    split at h
    · cases h
    · rename_i ls hs
      cases hm : merge (((ls ++ [bs c]).map List.length).sum + 1) (ls ++ [bs c]) with
      | none => simp only [hm] at h; cases h
      | some t =>
        simp only [hm, Option.map_some, Option.some.injEq] at h
        exact ⟨t, h.symm, (merge_spec _ _ _ hm).2.2⟩

end General

/-- C149 (linearisation). For every class graph, where a class statement succeeds, the resolution
order starts with the class, has the bases in the order written, keeps the resolution order of each
base, has no class that is not inherited from, and has none twice after the first place. -/
theorem C149_order {C : Type} [DecidableEq C] (bs : C → List C) (n : Nat) (c : C) (r : List C)
    (h : mro bs (n + 1) c = some r) :
    ∃ t, r = c :: t ∧ (bs c).Sublist t ∧ t.Nodup ∧
      (∀ b ∈ bs c, ∃ rb, mro bs n b = some rb ∧ rb.Sublist t) ∧
      ∀ x ∈ t, ∃ b ∈ bs c, ∃ rb, mro bs n b = some rb ∧ x ∈ rb := by
  rw [mro] at h
  split at h
  · cases h
  · rename_i ls hs
    cases hm : merge (((ls ++ [bs c]).map List.length).sum + 1) (ls ++ [bs c]) with
    | none => simp only [hm] at h; cases h
    | some t =>
      simp only [hm, Option.map_some, Option.some.injEq] at h
      obtain ⟨m1, m2, m3⟩ := merge_spec _ _ _ hm
      rw [allSome_map] at hs
      have hb : ∀ b ∈ bs c, ∃ rb ∈ ls, mro bs n b = some rb := by
        intro b hb
        exact forall₂_left _ _ _ hs b hb
      refine ⟨t, h.symm, m1 _ (by simp), m3, ?_, ?_⟩
      · intro b hb'
        obtain ⟨rb, h1, h2⟩ := hb b hb'
        exact ⟨rb, h2, m1 rb (by simp [h1])⟩
      · intro x hx
        obtain ⟨l, hl, hxl⟩ := m2 x hx
        rcases List.mem_append.mp hl with hl | hl
        · obtain ⟨b, hb1, hb2⟩ := forall₂_right _ _ _ hs l hl
          exact ⟨b, hb1, l, hb2, hxl⟩
        · rw [List.mem_singleton] at hl
          subst hl
          obtain ⟨rb, h1, h2⟩ := hb x hxl
          obtain ⟨t', e, _⟩ := mro_head bs n x rb h2
          exact ⟨x, hxl, rb, h2, by rw [e]; simp⟩

end Forcepho.Device.Classes
