import Verif.Patch.Meta
import Mathlib.Tactic.Ring

/-!
# C111: a task and the metadata of its patch

Model of how the tasks `optimize` and `sample` (forcepho/tasks.py:14-106) move the reference coordinates and
the packed scene of the patch, and of what `Result.fill` (fitting.py:86, 112-115, 147) makes of the chain
with them.  Only positions are kept; the sampler and the optimiser are the chain of position offsets
they return.
-/

set_option autoImplicit false
set_option linter.unusedSectionVars false

namespace Forcepho.Fitting

open Forcepho.Patch (Sky median zerocoords)

section Model
variable {K : Type} [Field K] [LinearOrder K]

/-- The attributes `patch_reference_coordinates` and `scene` (positions) of the patch. -/
structure PatchPos (K : Type) where
  ref : Sky K
  scene : List (Sky K)

/-- `pack_meta` (patch.py:242-270) of a scene just made by `set_scene`. -/
def packPos (_p : PatchPos K) (scene : List (Sky K)) : PatchPos K :=
  ⟨(zerocoords none scene).2, (zerocoords none scene).1⟩

/-- `subtract_fixed` (device_patch.py:141-183): the metadata of each block of subtracted sources are packed
in turn, those of the active sources last. -/
def prepPos (p : PatchPos K) (blocks : List (List (Sky K))) (active : List (Sky K)) : PatchPos K :=
  packPos (blocks.foldl packPos p) active

/-- Positions in the catalog of the last sample (`make_chaincat` and `get_sample_cat(-1)`). -/
def lastOnSky (ref : Sky K) (chain : List (List (Sky K))) : List (Sky K) :=
  (chain.getLastD []).map fun o => ⟨o.ra + ref.ra, o.dec + ref.dec⟩

/-- `design_matrix` (device_patch.py:212-227): the metadata of each source on its own are packed in turn. -/
def designPos (p : PatchPos K) (active : List (Sky K)) : PatchPos K :=
  active.foldl (fun q a => packPos q [a]) p

/-- `optimize` (tasks.py:14-79): the patch and the active catalog afterwards. -/
def optimizePos (p : PatchPos K) (blocks : List (List (Sky K))) (active : List (Sky K)) (linear : Bool)
    (chain : List (List (Sky K))) : PatchPos K × List (Sky K) :=
  let p1 := prepPos p blocks active
  let active' := lastOnSky p1.ref chain
  (if linear then designPos p1 active' else p1, active')

/-- `sample` (tasks.py:82-106). -/
def samplePos (p : PatchPos K) (blocks : List (List (Sky K))) (active : List (Sky K)) : PatchPos K × List (Sky K) :=
  (prepPos p blocks active, active)

/-- `fill` (fitting.py:86, 112-115, 147): the positions in the catalog returned, with the model the task
returned. -/
def fillPos (p : PatchPos K) (chain : List (List (Sky K))) : List (Sky K) := lastOnSky p.ref chain

end Model

/-! ## Specification -/

section Spec
variable {K : Type} [Field K] [LinearOrder K]

/-- The positions of a sample whose offsets are from the median position of the sources the fit was
started with. -/
def OnSky (active offsets positions : List (Sky K)) : Prop :=
  positions.length = offsets.length ∧ ∀ (i : Nat) (o : Sky K), offsets[i]? = some o →
    positions[i]? = some ⟨o.ra + median (active.map (·.ra)), o.dec + median (active.map (·.dec))⟩

/-- The packed metadata belong to these sources: the offsets of the packed scene are from the reference of
the patch, source for source. -/
def Describes (p : PatchPos K) (active : List (Sky K)) : Prop :=
  p.scene.length = active.length ∧ ∀ (i : Nat) (s : Sky K), active[i]? = some s →
    p.scene[i]? = some ⟨s.ra - p.ref.ra, s.dec - p.ref.dec⟩

end Spec

section Proofs
variable {K : Type} [Field K] [LinearOrder K]

lemma prepPos_ref (p : PatchPos K) (blocks : List (List (Sky K))) (active : List (Sky K)) :
    (prepPos p blocks active).ref = ⟨median (active.map (·.ra)), median (active.map (·.dec))⟩ := rfl

lemma prepPos_describes (p : PatchPos K) (blocks : List (List (Sky K))) (active : List (Sky K)) :
    Describes (prepPos p blocks active) active := by
  refine ⟨by simp [prepPos, packPos, zerocoords], ?_⟩
  intro i s h
  simp [prepPos, packPos, zerocoords, h]

lemma lastOnSky_onSky (active : List (Sky K)) (chain : List (List (Sky K))) (offsets : List (Sky K))
    (hlast : chain.getLast? = some offsets) :
    OnSky active offsets (lastOnSky ⟨median (active.map (·.ra)), median (active.map (·.dec))⟩ chain) := by
  have e : chain.getLastD [] = offsets := by
    rw [List.getLastD_eq_getLast?, hlast]; rfl
  refine ⟨by simp [lastOnSky, hlast], ?_⟩
  intro i o h
  simp [lastOnSky, hlast, h]

/-- C111. After `sample` the metadata of the patch describe the active sources and the filled result has the
positions that were sampled, whatever the patch was used for before. -/
theorem C111_sample (p : PatchPos K) (blocks : List (List (Sky K))) (active : List (Sky K))
    (chain : List (List (Sky K))) (offsets : List (Sky K)) (hlast : chain.getLast? = some offsets) :
    Describes (samplePos p blocks active).1 active ∧ (samplePos p blocks active).2 = active ∧
    OnSky active offsets (fillPos (samplePos p blocks active).1 chain) :=
  ⟨prepPos_describes p blocks active, rfl, lastOnSky_onSky active chain offsets hlast⟩

/-- C111 (partial). After `optimize` the returned catalog has the optimised positions; without linear
optimisation the metadata of the patch describe the sources the model was made with, and the filled result
has the optimised positions as well.  Missing: the last two with linear optimisation, refuted below. -/
theorem C111_optimize_partial (p : PatchPos K) (blocks : List (List (Sky K))) (active : List (Sky K))
    (chain : List (List (Sky K))) (offsets : List (Sky K)) (hlast : chain.getLast? = some offsets) (linear : Bool) :
    OnSky active offsets (optimizePos p blocks active linear chain).2 ∧
    (linear = false → Describes (optimizePos p blocks active linear chain).1 active ∧
      OnSky active offsets (fillPos (optimizePos p blocks active linear chain).1 chain)) := by
  refine ⟨lastOnSky_onSky active chain offsets hlast, ?_⟩
  rintro rfl
  exact ⟨prepPos_describes p blocks active, lastOnSky_onSky active chain offsets hlast⟩

lemma median_one (x : K) : median [x] = x := by simp [median]

lemma designPos_append (p : PatchPos K) (l : List (Sky K)) (a : Sky K) :
    designPos p (l ++ [a]) = ⟨a, [⟨a.ra - a.ra, a.dec - a.dec⟩]⟩ := by
  simp only [designPos, List.foldl_append, List.foldl_cons, List.foldl_nil]
  simp [packPos, zerocoords, median_one]

/-- C111 fails with linear optimisation: afterwards the patch holds the metadata of one source, the last one,
and its reference is the position of this source.  A result filled with the returned model has all positions
off by the offset of the last source, and there are never several sources described by the patch. -/
theorem C111_linear_refuted (p : PatchPos K) (blocks : List (List (Sky K))) (active : List (Sky K))
    (chain : List (List (Sky K))) (offsets : List (Sky K)) (last : Sky K)
    (hlast : chain.getLast? = some (offsets ++ [last])) :
    (∀ (i : Nat) (s o : Sky K), (optimizePos p blocks active true chain).2[i]? = some s →
      (fillPos (optimizePos p blocks active true chain).1 chain)[i]? = some o →
      o.ra = s.ra + last.ra ∧ o.dec = s.dec + last.dec) ∧
    (last.ra ≠ 0 → ¬ OnSky active (offsets ++ [last]) (fillPos (optimizePos p blocks active true chain).1 chain)) ∧
    (optimizePos p blocks active true chain).1.scene.length = 1 := by
  have e : chain.getLastD [] = offsets ++ [last] := by
    rw [List.getLastD_eq_getLast?, hlast]; rfl
  have hp : (optimizePos p blocks active true chain).1 =
      ⟨⟨last.ra + median (active.map (·.ra)), last.dec + median (active.map (·.dec))⟩, [⟨0, 0⟩]⟩ := by
    simp only [optimizePos, if_true, lastOnSky, e, List.map_append, List.map_cons, List.map_nil, designPos_append,
      prepPos_ref, sub_self]
  refine ⟨?_, ?_, by rw [hp]; rfl⟩
  · intro i s o hs ho
    simp only [optimizePos, lastOnSky, e, List.getElem?_map, Option.map_eq_some_iff, prepPos_ref] at hs
    rw [hp] at ho
    simp only [fillPos, lastOnSky, e, List.getElem?_map, Option.map_eq_some_iff] at ho
    obtain ⟨x, hx, rfl⟩ := hs
    obtain ⟨y, hy, rfl⟩ := ho
    rw [hx] at hy
    injection hy with hy
    subst hy
    constructor <;> simp only <;> ring
  · intro hne h
    have h1 := h.2 offsets.length last (by simp)
    rw [hp] at h1
    simp only [fillPos, lastOnSky, e, List.getElem?_map, List.getElem?_append_right (Nat.le_refl _), Nat.sub_self,
      List.getElem?_cons_zero, Option.map_some, Option.some.injEq, Sky.mk.injEq] at h1
    apply hne
    have h2 := h1.1
    have : last.ra + (last.ra + median (active.map (·.ra))) = last.ra + (0 + median (active.map (·.ra))) := by
      rw [h2, zero_add]
    have h3 := add_left_cancel this
    exact add_right_cancel h3

end Proofs

/-- Two sources, and a chain with one sample. -/
def exPos : List (Sky Rat) := [⟨10, 20⟩, ⟨12, 20⟩]

/-- The chain of the example: one sample with a position for each of the two sources. -/
def exPosChain : List (List (Sky Rat)) := [[⟨-1, 0⟩, ⟨1, 0⟩]]

/-- The case of two sources: without linear optimisation the filled positions are right, with it both are off
by one. -/
example : fillPos (optimizePos ⟨⟨0, 0⟩, []⟩ [] exPos false exPosChain).1 exPosChain = exPos ∧
    fillPos (optimizePos ⟨⟨0, 0⟩, []⟩ [] exPos true exPosChain).1 exPosChain = [⟨11, 20⟩, ⟨13, 20⟩] := by
  have hm : ∀ a b : Rat, a ≤ b → median [a, b] = (a + b) / 2 := by
    intro a b h
    simp [median, List.mergeSort, List.MergeSort.Internal.splitInTwo, h]
  have m1 : median [(10 : Rat), 12] = 11 := by rw [hm _ _ (by norm_num)]; norm_num
  have m2 : median [(20 : Rat), 20] = 20 := by rw [hm _ _ (by norm_num)]; norm_num
  constructor
  · simp [fillPos, optimizePos, lastOnSky, exPos, exPosChain, prepPos_ref, m1, m2]; norm_num
  · simp [fillPos, optimizePos, lastOnSky, exPos, exPosChain, prepPos_ref, m1, m2, designPos, packPos, zerocoords, median_one]
    norm_num

end Forcepho.Fitting
